import Verif.Props.Realizable
import Verif.Lemmas.TrainOrder
import Verif.Lemmas.Ideal

/-! # C131: with a numerical library that does what it promises, training succeeds and is optimal -/

namespace Dissect
open Finset
noncomputable section
variable {κ : Type} [DecidableEq κ]

/-- A learner that a constructor returned. -/
def Learner.Built (l : Learner) : Prop := (∃ ic, l = .lstsq ic) ∨ ∃ a, Learner.newRidge a = .ok l

/-- A constructed ridge learner has a parameter or cross-validates. -/
theorem Learner.Built.ridge {ic cv : Bool} {rng : List ℝ} {par : Option ℝ} (h : (Learner.ridge ic cv rng par).Built) :
    cv = true ∨ ∃ p, par = some p := by
  rcases h with ⟨i, h⟩ | ⟨a, h⟩
  · cases h
  · by_cases hk : ∀ k ∈ a.names, k ∈ ["intercept", "param_range", "crossvalidation", "param"]
    · rw [C54_configuration a hk] at h
      split at h
      · cases h
      · rename_i hn
        have := ok_inj h
        injection this with e1 e2 e3 e4
        subst e2 e4
        cases hcv : crossValidates a with
        | true => exact Or.inl rfl
        | false =>
          right
          cases hp : a.param.join with
          | none => exact absurd ⟨hcv, hp⟩ hn
          | some p => exact ⟨p, rfl⟩
    · push Not at hk
      rw [C54_unknown_keyword a hk] at h
      cases h

theorem lexError_eq (arg phrase : Space κ) (l : List (Triple κ)) (X : Mat ℝ) (ic : Bool) :
    sqResid (argRows arg l) (phraseRows phrase l) X ic = lexError arg phrase l (predictVec arg.mat.nc X.get ic) := by
  have h := sqResid_rows arg.mat.nc phrase.mat.nc (fun t : Triple κ => arg.vecOf t.2.1) (fun t => phrase.vecOf t.2.2) l X ic
  have e1 : argRows arg l = rowsMat arg.mat.nc (fun t : Triple κ => arg.vecOf t.2.1) l := by
    unfold argRows rowsMat
    congr 1
    funext k j
    cases l[k]? <;> rfl
  have e2 : phraseRows phrase l = rowsMat phrase.mat.nc (fun t : Triple κ => phrase.vecOf t.2.2) l := by
    unfold phraseRows rowsMat
    congr 1
    funext k j
    cases l[k]? <;> rfl
  rw [e1, e2, h]
  rfl

theorem ridge_ideal {env : Env} (henv : env.Ideal) (a b : TMat ℝ) (lam : ℝ) (ic : Bool) (hty : a.ty = b.ty)
    (hr : a.nr = b.nr) (h1 : 0 < a.nr) (h2 : 0 < a.nc) (h3 : 0 < b.nc) :
    ∃ x tr err, ridgeRegression env a b lam ic = .ok (x, tr, err) ∧ x.ty = a.ty ∧ x.nr = numCoef a.val ic ∧ x.nc = b.nc ∧
      (0 ≤ lam → ∀ Y : Mat ℝ, ridgeObjective a.val b.val x.val lam ic ≤ ridgeObjective a.val b.val Y lam ic) := by
  obtain ⟨P, hP, hpin⟩ := henv.pinv (ridgeGram a.val lam ic)
  refine ⟨_, _, _, ridgeRegression_ok env a b lam ic hty hr h1 h2 h3 P hP hpin.nr hpin.nc, rfl, hpin.nr, rfl, fun hlam Y => ?_⟩
  exact ridge_min a.val b.val P lam hlam ic hr hpin Y

/-- **C131** every constructed learner succeeds on every pair of non-empty training matrices of one class with equal numbers
of rows, and returns a coefficient matrix of that class with one row per input (and one for the intercept) and one column per
output; a least-squares learner's solution has the least squared error, that of a ridge learner with a fixed parameter
`p ≥ 0` the least penalised error. -/
theorem C131_learner (env : Env) (henv : env.Ideal) (l : Learner) (hl : l.Built) (a b : TMat ℝ) (hty : a.ty = b.ty)
    (hr : a.nr = b.nr) (h1 : 0 < a.nr) (h2 : 0 < a.nc) (h3 : 0 < b.nc) :
    ∃ X, l.train env a b = .ok X ∧ X.ty = a.ty ∧ X.nr = numCoef a.val l.hasIntercept ∧ X.nc = b.nc ∧
      (∀ ic, l = .lstsq ic → ∀ Y : Mat ℝ, sqResid a.val b.val X.val ic ≤ sqResid a.val b.val Y ic) ∧
      (∀ ic rng p, l = .ridge ic false rng (some p) → 0 ≤ p →
        ∀ Y : Mat ℝ, ridgeObjective a.val b.val X.val p ic ≤ ridgeObjective a.val b.val Y p ic) := by
  cases l with
  | lstsq ic =>
    obtain ⟨P, hP, hpin⟩ := henv.pinv (ridgeGram (design a.val ic) 0 false)
    obtain ⟨X, e, e1, e2, e3, e4⟩ := lstsq_learner env ic a.ty a.val b.val hr h1 h2 h3
      (henv.solves (design a.val ic) b.val) P hP hpin
    refine ⟨X, ?_, e1, e2, e3, ?_, ?_⟩
    · have : b = ⟨a.ty, b.val⟩ := by rw [hty]
      rw [this]
      exact e
    · rintro ic' ⟨⟩
      exact e4
    · rintro _ _ _ ⟨⟩
  | ridge ic cv rng par =>
    cases cv with
    | true =>
      have hall : ∀ p ∈ 0 :: rng, ∃ r, ridgeRegression env a b p ic = .ok r := by
        intro p _
        obtain ⟨x, tr, err, h, _⟩ := ridge_ideal henv a b p ic hty hr h1 h2 h3
        exact ⟨_, h⟩
      obtain ⟨X, hX⟩ := C53_succeeds env a b ic rng par hall
      obtain ⟨p, tr, err, _, hp⟩ := C53_first_minimiser env a b ic rng par X hX
      obtain ⟨x, tr', err', h, e1, e2, e3, _⟩ := ridge_ideal henv a b p ic hty hr h1 h2 h3
      rw [hp] at h
      have := ok_inj h
      injection this with hx
      subst hx
      refine ⟨X, hX, e1, e2, e3, ?_, ?_⟩
      · rintro _ ⟨⟩
      · rintro _ _ _ ⟨⟩
    | false =>
      obtain ⟨p, rfl⟩ : ∃ p, par = some p := by
        rcases hl.ridge with h | h
        · cases h
        · exact h
      obtain ⟨x, tr, err, h, e1, e2, e3, e4⟩ := ridge_ideal henv a b p ic hty hr h1 h2 h3
      refine ⟨x, ?_, e1, e2, e3, ?_, ?_⟩
      · simp only [Learner.train]
        rw [h]
        rfl
      · rintro _ ⟨⟩
      · rintro _ _ _ ⟨⟩ hp
        exact e4 hp

/-- **C131** a weighted additive model can be trained on all data with at least one usable triple. -/
theorem C131_weighted (env : Env) (henv : env.Ideal) (c : Composer κ) (a0 b0 : ℝ) (hc : c.model = .weighted a0 b0)
    (data : List (Triple κ)) (args : ArgSpace κ) (s1 s2 p : Space κ) (n : ℕ)
    (hx : args.extract = .ok (s1, s2)) (h1 : s1.WF) (h2 : s2.WF) (hp : p.WF) (hn : 0 < n)
    (n1 : s1.mat.nc = n) (n2 : s2.mat.nc = n) (n3 : p.mat.nc = n) (hv : trainTriples s1 s2 p data ≠ []) :
    ∃ a b, c.train env data args p = .ok ⟨.weighted a b, some p.id2col⟩ ∧
      ((p.mat.nr / 15 + 1) ∣ (trainTriples s1 s2 p data).length →
        ∀ a' b', trainError s1 s2 p (trainTriples s1 s2 p data) (weightedVec a b) ≤
          trainError s1 s2 p (trainTriples s1 s2 p data) (weightedVec a' b')) := by
  obtain ⟨P, hP, hpin⟩ := henv.pinv (gram2 s1 s2 n (usedSamples p (trainTriples s1 s2 p data)))
  obtain ⟨a, b, ht, hmin⟩ := C48_used_partial env c a0 b0 hc data args s1 s2 p n hx h1 h2 hp hn n1 n2 n3 hv P hP hpin
  refine ⟨a, b, ht, fun hd => ?_⟩
  have hall : usedSamples p (trainTriples s1 s2 p data) = trainTriples s1 s2 p data := by
    unfold usedSamples
    rw [Nat.div_mul_cancel hd, List.take_length]
  rwa [hall] at hmin

/-- **C131** a full additive model with any constructed learner can be trained on all data with at least one usable triple;
with a least-squares learner no affine map of the pair of vectors has a smaller total squared error; and the trained model
composes every list of pairs of known words with distinct phrases. -/
theorem C131_full_additive (env : Env) (henv : env.Ideal) (c : Composer κ) (at0 bt0 : Option (TMat ℝ)) (i0 : Bool)
    (l : Learner) (hl : l.Built) (hc : c.model = .fullAdditive at0 bt0 i0 (some l)) (data : List (Triple κ))
    (args : ArgSpace κ) (s1 s2 p : Space κ) (hx : args.extract = .ok (s1, s2)) (h1 : s1.WF) (h2 : s2.WF) (hp : p.WF)
    (n1 : 0 < s1.mat.nc) (n2 : 0 < s2.mat.nc) (n3 : 0 < p.mat.nc) (hv : trainTriples s1 s2 p data ≠ []) :
    ∃ c', c.train env data args p = .ok c' ∧ c'.columns = some p.id2col ∧
      (∀ ic, l = .lstsq ic → ∀ (A B : ℕ → ℕ → ℝ) (d : ℕ → ℝ), (ic = false → ∀ j, d j = 0) →
        trainError s1 s2 p (trainTriples s1 s2 p data) (c'.model.vec s1.mat.nc s2.mat.nc) ≤
          trainError s1 s2 p (trainTriples s1 s2 p data) (affineVec s1.mat.nc s2.mat.nc A B d)) ∧
      ∀ (args' : ArgSpace κ) (t1 t2 : Space κ) (data' : List (Triple κ)), args'.extract = .ok (t1, t2) →
        t1.WF → t2.WF → t1.mat.nc = s1.mat.nc → t2.mat.nc = s2.mat.nc → knownTriples t1 t2 data' ≠ [] →
        ((knownTriples t1 t2 data').map (·.2.2)).Nodup →
        ∃ r, (c'.compose data' args').2 = .ok r ∧ r.WF ∧ r.id2row = (knownTriples t1 t2 data').map (·.2.2) ∧
          r.id2col = p.id2col ∧ r.mat.nc = p.mat.nc := by
  obtain ⟨ty, h⟩ := C44_full_additive env c at0 bt0 i0 l hc data args s1 s2 p hx h1 h2 hp n1 n2 n3 hv
  have hpos : 0 < (trainTriples s1 s2 p data).length := List.length_pos_iff.2 hv
  obtain ⟨X, e, _, e2, e3, e4, _⟩ := C131_learner env henv l hl ⟨ty, pairRows s1 s2 (trainTriples s1 s2 p data)⟩
    ⟨ty, phraseRows p (trainTriples s1 s2 p data)⟩ rfl rfl hpos (show 0 < s1.mat.nc + s2.mat.nc by omega) n3
  obtain ⟨c', hc', hcol, hvec, hcomp⟩ := h X e e2 e3
  refine ⟨c', hc', hcol, ?_, ?_⟩
  · rintro ic rfl A B d hd
    have hfun : c'.model.vec s1.mat.nc s2.mat.nc =
        fun u v => predictVec (s1.mat.nc + s2.mat.nc) X.val.get ic (joinVec s1.mat.nc u v) := by
      funext u v j
      exact hvec u v j
    let N := s1.mat.nc + s2.mat.nc
    let Y : Mat ℝ := Mat.of (N + 1) p.mat.nc (fun k j =>
      if k < s1.mat.nc then A j k else if k < N then B j (k - s1.mat.nc) else d j)
    have hY : trainError s1 s2 p (trainTriples s1 s2 p data)
        (fun u v => predictVec (s1.mat.nc + s2.mat.nc) Y.get ic (joinVec s1.mat.nc u v)) =
        trainError s1 s2 p (trainTriples s1 s2 p data) (affineVec s1.mat.nc s2.mat.nc A B d) := by
      unfold trainError
      congr 1
      refine List.map_congr_left fun t _ => Finset.sum_congr rfl fun j hj => ?_
      have hj' := Finset.mem_range.1 hj
      congr 2
      unfold predictVec affineVec dot
      beta_reduce
      rw [Finset.sum_range_add]
      congr 1
      · congr 1
        · refine Finset.sum_congr rfl fun k hk => ?_
          have hk' := Finset.mem_range.1 hk
          rw [Mat.of_get_lt (by omega) hj', if_pos hk', joinVec, if_pos hk', mul_comm]
        · refine Finset.sum_congr rfl fun k hk => ?_
          have hk' := Finset.mem_range.1 hk
          rw [Mat.of_get_lt (by omega) hj', if_neg (by omega), if_pos (show s1.mat.nc + k < N by omega), joinVec,
            if_neg (by omega), Nat.add_sub_cancel_left, mul_comm]
      · cases ic with
        | true => rw [if_pos rfl, Mat.of_get_lt (by omega) hj', if_neg (by omega), if_neg (show ¬ N < N by omega)]
        | false => rw [hd rfl j]; simp
    rw [hfun, ← hY, trainError_eq_sqResid, trainError_eq_sqResid]
    exact e4 ic rfl Y
  · intro args' t1 t2 data' hx' w1 w2 m1 m2 hk hnd
    obtain ⟨r, r1, r2, r3, r4, r5, _⟩ := hcomp args' t1 t2 data' hx' w1 w2 m1 m2 hk hnd
    exact ⟨r, r1, r2, r3, r4, r5⟩

/-- **C131** training lexical functions with any constructed learner succeeds exactly when some word has enough usable
samples, and fails with `ValueError` otherwise. -/
theorem C131_lexical_iff (env : Env) (henv : env.Ideal) (le : κ → κ → Bool)
    (htrans : ∀ a b c, le a b = true → le b c = true → le a c = true) (htotal : ∀ a b, (le a b || le b a) = true)
    (hanti : ∀ a b, le a b = true → le b a = true → a = b) (m : LexFun κ) (hl : m.learner.Built)
    (data : List (Triple κ)) (arg phrase : Space κ) (ha : arg.WF) (hp : phrase.WF) (hd : data ≠ [])
    (na : 0 < arg.mat.nc) (np : 0 < phrase.mat.nc) (hsh : arg.elemShape = [arg.mat.nc]) (hms : 1 ≤ m.minSamples) :
    ((∃ m', m.train env le data arg phrase = .ok m') ↔
      ∃ f, m.minSamples ≤ ((lexSamples arg phrase data f).length : ℤ)) ∧
    ((¬ ∃ f, m.minSamples ≤ ((lexSamples arg phrase data f).length : ℤ)) →
      m.train env le data arg phrase = .error .valueError) := by
  have hno := C46_no_function env le htrans htotal hanti m data arg phrase ha hp hd hms
  refine ⟨⟨fun ⟨m', h⟩ => ?_, fun hex => ?_⟩, hno⟩
  · by_contra hc
    rw [hno hc] at h
    cases h
  · have hX : ∀ f, ∃ X : TMat ℝ, m.minSamples ≤ ((lexSamples arg phrase data f).length : ℤ) →
        m.learner.train env ⟨lexTy arg phrase, argRows arg (lexSamples arg phrase data f)⟩
          ⟨lexTy arg phrase, phraseRows phrase (lexSamples arg phrase data f)⟩ = .ok X ∧
        X.ty = lexTy arg phrase ∧
        X.nr = (if m.learner.hasIntercept then arg.mat.nc + 1 else arg.mat.nc) ∧ X.nc = phrase.mat.nc := by
      intro f
      by_cases hf : m.minSamples ≤ ((lexSamples arg phrase data f).length : ℤ)
      · obtain ⟨X, e, e1, e2, e3, _⟩ := C131_learner env henv m.learner hl
          ⟨lexTy arg phrase, argRows arg (lexSamples arg phrase data f)⟩
          ⟨lexTy arg phrase, phraseRows phrase (lexSamples arg phrase data f)⟩ rfl rfl
          (show 0 < (lexSamples arg phrase data f).length by omega) na np
        exact ⟨X, fun _ => ⟨e, e1, e2, e3⟩⟩
      · exact ⟨⟨.dense, zero2⟩, fun h => absurd h hf⟩
    choose X hX using hX
    obtain ⟨m', fs, t1, _⟩ := C46_train env le htrans htotal hanti m data arg phrase ha hp na np hsh hms hex X hX
    exact ⟨m', t1⟩

/-- **C131** every learned function is the best one for the usable samples of its word: with a least-squares learner no affine
map (linear, without intercept) has a smaller total squared error over these samples; with a ridge learner of fixed parameter
`q ≥ 0`, none has a smaller sum of that error and `q` times the squared length of its coefficients. -/
theorem C131_lexical_optimal (env : Env) (henv : env.Ideal) (le : κ → κ → Bool)
    (htrans : ∀ a b c, le a b = true → le b c = true → le a c = true) (htotal : ∀ a b, (le a b || le b a) = true)
    (hanti : ∀ a b, le a b = true → le b a = true → a = b) (m : LexFun κ) (hl : m.learner.Built)
    (data : List (Triple κ)) (arg phrase : Space κ) (ha : arg.WF) (hp : phrase.WF)
    (na : 0 < arg.mat.nc) (np : 0 < phrase.mat.nc) (hsh : arg.elemShape = [arg.mat.nc]) (hms : 1 ≤ m.minSamples)
    (hex : ∃ f, m.minSamples ≤ ((lexSamples arg phrase data f).length : ℤ)) :
    ∃ m' fs, m.train env le data arg phrase = .ok m' ∧ m'.functions = some fs ∧
      (∀ f, f ∈ fs.id2row ↔ m.minSamples ≤ ((lexSamples arg phrase data f).length : ℤ)) ∧
      ∀ f ∈ fs.id2row, ∀ Y : Mat ℝ,
        (∀ ic, m.learner = .lstsq ic →
          lexError arg phrase (lexSamples arg phrase data f) (lexVec arg.mat.nc ic (fs.vecOf f)) ≤
            lexError arg phrase (lexSamples arg phrase data f) (predictVec arg.mat.nc Y.get ic)) ∧
        (∀ ic rng q, m.learner = .ridge ic false rng (some q) → 0 ≤ q →
          lexError arg phrase (lexSamples arg phrase data f) (lexVec arg.mat.nc ic (fs.vecOf f)) +
              q * ∑ i ∈ range arg.mat.nc, ∑ j ∈ range phrase.mat.nc,
                fs.vecOf f (j * (if ic then arg.mat.nc + 1 else arg.mat.nc) + i) ^ 2 ≤
            lexError arg phrase (lexSamples arg phrase data f) (predictVec arg.mat.nc Y.get ic) +
              q * ∑ i ∈ range arg.mat.nc, ∑ j ∈ range phrase.mat.nc, Y.get i j ^ 2) := by
  have hX : ∀ f, ∃ X : TMat ℝ, m.minSamples ≤ ((lexSamples arg phrase data f).length : ℤ) →
      (m.learner.train env ⟨lexTy arg phrase, argRows arg (lexSamples arg phrase data f)⟩
        ⟨lexTy arg phrase, phraseRows phrase (lexSamples arg phrase data f)⟩ = .ok X ∧
      X.ty = lexTy arg phrase ∧
      X.nr = (if m.learner.hasIntercept then arg.mat.nc + 1 else arg.mat.nc) ∧ X.nc = phrase.mat.nc) ∧
      (∀ ic, m.learner = .lstsq ic → ∀ Y : Mat ℝ,
        sqResid (argRows arg (lexSamples arg phrase data f)) (phraseRows phrase (lexSamples arg phrase data f)) X.val ic ≤
          sqResid (argRows arg (lexSamples arg phrase data f)) (phraseRows phrase (lexSamples arg phrase data f)) Y ic) ∧
      (∀ ic rng q, m.learner = .ridge ic false rng (some q) → 0 ≤ q → ∀ Y : Mat ℝ,
        ridgeObjective (argRows arg (lexSamples arg phrase data f)) (phraseRows phrase (lexSamples arg phrase data f)) X.val q ic ≤
          ridgeObjective (argRows arg (lexSamples arg phrase data f)) (phraseRows phrase (lexSamples arg phrase data f)) Y q ic) := by
    intro f
    by_cases hf : m.minSamples ≤ ((lexSamples arg phrase data f).length : ℤ)
    · obtain ⟨X, e, e1, e2, e3, e4, e5⟩ := C131_learner env henv m.learner hl
        ⟨lexTy arg phrase, argRows arg (lexSamples arg phrase data f)⟩
        ⟨lexTy arg phrase, phraseRows phrase (lexSamples arg phrase data f)⟩ rfl rfl
        (show 0 < (lexSamples arg phrase data f).length by omega) na np
      exact ⟨X, fun _ => ⟨⟨e, e1, e2, e3⟩, e4, e5⟩⟩
    · exact ⟨⟨.dense, zero2⟩, fun h => absurd h hf⟩
  choose X hX using hX
  obtain ⟨m', fs, t1, t2, _, _, _, _, t7, _, t9⟩ := C46_train env le htrans htotal hanti m data arg phrase ha hp na np hsh
    hms hex X (fun f hf => (hX f hf).1)
  refine ⟨m', fs, t1, t2, t7, fun f hf Y => ?_⟩
  have hen := (t7 f).1 hf
  have herr : lexError arg phrase (lexSamples arg phrase data f) (lexVec arg.mat.nc m.learner.hasIntercept (fs.vecOf f)) =
      lexError arg phrase (lexSamples arg phrase data f) (predictVec arg.mat.nc (X f).val.get m.learner.hasIntercept) := by
    unfold lexError
    congr 1
    refine List.map_congr_left fun t _ => Finset.sum_congr rfl fun j hj => ?_
    rw [t9 f hf _ j (Finset.mem_range.1 hj)]
  constructor
  · intro ic hlc
    have hic : m.learner.hasIntercept = ic := by rw [hlc]; rfl
    rw [hic] at herr
    rw [herr, ← lexError_eq, ← lexError_eq]
    exact (hX f hen).2.1 ic hlc Y
  · intro ic rng q hlc hq
    have hic : m.learner.hasIntercept = ic := by rw [hlc]; rfl
    have hcoef : ∀ i < arg.mat.nc, ∀ j < phrase.mat.nc,
        fs.vecOf f (j * (if ic then arg.mat.nc + 1 else arg.mat.nc) + i) = (X f).val.get i j := by
      intro i hi j hj
      have z := t9 f hf (fun _ => 0) j hj
      have u := t9 f hf (fun k => if k = i then 1 else 0) j hj
      rw [hic] at z u
      generalize hw : (if ic = true then arg.mat.nc + 1 else arg.mat.nc) = w
      simp only [lexVec, predictVec, hw, mul_zero, zero_mul, Finset.sum_const_zero, zero_add] at z
      simp only [lexVec, predictVec, hw, mul_ite, mul_one, mul_zero, ite_mul, one_mul, zero_mul] at u
      rw [Finset.sum_ite_eq', Finset.sum_ite_eq', if_pos (Finset.mem_range.2 hi), if_pos (Finset.mem_range.2 hi), z] at u
      exact add_right_cancel u
    have hpen : ∑ i ∈ range arg.mat.nc, ∑ j ∈ range phrase.mat.nc,
        fs.vecOf f (j * (if ic then arg.mat.nc + 1 else arg.mat.nc) + i) ^ 2 =
        sqPenalty (argRows arg (lexSamples arg phrase data f)) (phraseRows phrase (lexSamples arg phrase data f)) (X f).val := by
      unfold sqPenalty
      refine Finset.sum_congr rfl fun i hi => Finset.sum_congr rfl fun j hj => ?_
      rw [hcoef i (Finset.mem_range.1 hi) j (Finset.mem_range.1 hj)]
    rw [hic] at herr
    rw [herr, hpen, ← lexError_eq, ← lexError_eq]
    exact (hX f hen).2.2 ic rng q hlc hq Y

/-! ## Non-vacuity -/

example : Learner.Built (.lstsq true) ∧ Learner.Built (.ridge true true lambdaGrid none) ∧
    Learner.Built (.ridge true false lambdaGrid (some 3)) := by
  refine ⟨Or.inl ⟨_, rfl⟩, Or.inr ⟨⟨[], none, none, none, none⟩, ?_⟩, Or.inr ⟨⟨["param"], none, none, some (some 3), none⟩, ?_⟩⟩
  · rw [C54_configuration _ (by simp)]; simp [crossValidates]
  · rw [C54_configuration _ (by simp)]; simp [crossValidates, Option.join]

/-- A least-squares problem with three samples, two inputs, one output and an intercept. -/
example := C131_learner idealEnv idealEnv_ideal (.lstsq true) (Or.inl ⟨_, rfl⟩)
  ⟨.sparse, Mat.of 3 2 (fun i j => (i : ℝ) + j)⟩ ⟨.sparse, Mat.of 3 1 (fun i _ => (i : ℝ) ^ 2)⟩ rfl rfl (by decide) (by decide)
  (by decide)

end
end Dissect
