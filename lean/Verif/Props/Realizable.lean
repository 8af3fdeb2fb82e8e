import Verif.Props.TrainCompose
import Verif.Props.Lexical

/-! # C105: training data generated by the model itself are reproduced -/

namespace Dissect
open Finset
noncomputable section
variable {κ : Type} [DecidableEq κ]

/-- Some rule `f` gives every training triple its phrase vector exactly. -/
def Fitted (s1 s2 p : Space κ) (l : List (Triple κ)) (f : (ℕ → ℝ) → (ℕ → ℝ) → ℕ → ℝ) : Prop :=
  ∀ t ∈ l, ∀ j < p.mat.nc, f (s1.vecOf t.1) (s2.vecOf t.2.1) j = p.vecOf t.2.2 j

/-- `r` is the space of the composed phrases of `known`, with the columns of the phrase space `p`, and the row of every
training triple (one whose phrase is a row label of `p`) is the vector of its phrase in `p`. -/
structure GivesBack (p : Space κ) (known : List (Triple κ)) (r : Space κ) : Prop where
  wf : r.WF
  labels : r.id2row = known.map (·.2.2)
  columns : r.id2col = p.id2col
  width : r.mat.nc = p.mat.nc
  vectors : ∀ (k : ℕ) (a b phrase : κ), known[k]? = some (a, b, phrase) → phrase ∈ p.id2row →
    ∀ j < p.mat.nc, r.mat.val.get k j = p.vecOf phrase j

omit [DecidableEq κ] in
theorem list_sum_sq_zero {α : Type} (l : List α) (g : α → ℝ) (hg : ∀ a ∈ l, 0 ≤ g a) (h : (l.map g).sum ≤ 0) :
    ∀ a ∈ l, g a = 0 := by
  induction l with
  | nil => simp
  | cons a l ih =>
    rw [List.map_cons, List.sum_cons] at h
    have h1 : 0 ≤ g a := hg a (by simp)
    have h2 : 0 ≤ (l.map g).sum := List.sum_nonneg (by
      intro x hx
      obtain ⟨y, hy, rfl⟩ := List.mem_map.1 hx
      exact hg y (by simp [hy]))
    intro b hb
    rcases List.mem_cons.1 hb with rfl | hb
    · linarith
    · exact ih (fun a ha => hg a (by simp [ha])) (by linarith) b hb

theorem trainError_fitted {s1 s2 p : Space κ} {l : List (Triple κ)} {f : (ℕ → ℝ) → (ℕ → ℝ) → ℕ → ℝ} :
    trainError s1 s2 p l f ≤ 0 ↔ Fitted s1 s2 p l f := by
  constructor
  · intro h t ht j hj
    have := list_sum_sq_zero l _ (fun t _ => Finset.sum_nonneg fun j _ => sq_nonneg _) h t ht
    have h0 := (Finset.sum_eq_zero_iff_of_nonneg (fun j _ => sq_nonneg _)).1 this j (Finset.mem_range.2 hj)
    have := pow_eq_zero_iff (two_ne_zero) |>.1 h0
    linarith
  · intro h
    unfold trainError
    refine le_of_eq (List.sum_eq_zero (fun x hx => ?_))
    obtain ⟨t, ht, rfl⟩ := List.mem_map.1 hx
    refine Finset.sum_eq_zero (fun j hj => ?_)
    rw [h t ht j (Finset.mem_range.1 hj), sub_self]
    ring

theorem known_train {s1 s2 p : Space κ} {data : List (Triple κ)} {k : ℕ} {a b phrase : κ}
    (hk : (knownTriples s1 s2 data)[k]? = some (a, b, phrase)) (hp : phrase ∈ p.id2row) :
    (a, b, phrase) ∈ trainTriples s1 s2 p data := by
  have := List.mem_of_getElem? hk
  rw [knownTriples, List.mem_filter, decide_eq_true_eq] at this
  rw [trainTriples, List.mem_filter, decide_eq_true_eq]
  exact ⟨this.1, this.2.1, this.2.2, hp⟩

theorem train_known_ne {s1 s2 p : Space κ} {data : List (Triple κ)} (h : trainTriples s1 s2 p data ≠ []) :
    knownTriples s1 s2 data ≠ [] := by
  obtain ⟨t, ht⟩ := List.exists_mem_of_ne_nil _ h
  rw [trainTriples, List.mem_filter, decide_eq_true_eq] at ht
  refine List.ne_nil_of_mem (a := t) ?_
  rw [knownTriples, List.mem_filter, decide_eq_true_eq]
  exact ⟨ht.1, ht.2.1, ht.2.2.1⟩

/-- A trained model that fits the training triples reproduces them when it composes them. -/
theorem reproduces_of_fitted (c : Composer κ) (data : List (Triple κ)) (args : ArgSpace κ) (s1 s2 p : Space κ)
    (hx : args.extract = .ok (s1, s2)) (h1 : s1.WF) (h2 : s2.WF) (hp : p.WF)
    (hf : c.model.Fits s1.mat.nc s2.mat.nc p.mat.nc) (hcol : c.columns = some p.id2col)
    (hv : trainTriples s1 s2 p data ≠ []) (hn : ((knownTriples s1 s2 data).map (·.2.2)).Nodup)
    (hfit : Fitted s1 s2 p (trainTriples s1 s2 p data) (c.model.vec s1.mat.nc s2.mat.nc)) :
    ∃ r, (c.compose data args).2 = .ok r ∧ GivesBack p (knownTriples s1 s2 data) r := by
  obtain ⟨r, hr, ic⟩ := C38_compose c data args s1 s2 p.mat.nc hx h1 h2 hf (by
    intro cols h
    rw [hcol] at h
    injection h with h
    subst h
    exact ⟨hp.cols.nodup, fun h => (hp.ncols h).symm⟩) (train_known_ne hv) hn
  refine ⟨r, hr, ic.wf, ic.labels, (C38_columns c data args s1 s2 r hx hr).1 _ hcol, ic.width, ?_⟩
  intro k a b phrase hk hph j hj
  have hm := known_train hk hph
  have hmem := trainTriples_mem hm
  have e1 : s1.HasWord (s1.id2row.idxOf a) a := by
    have := List.idxOf_lt_length_of_mem hmem.1
    show s1.id2row[_]? = some a
    rw [List.getElem?_eq_getElem this, List.getElem_idxOf this]
  have e2 : s2.HasWord (s2.id2row.idxOf b) b := by
    have := List.idxOf_lt_length_of_mem hmem.2.1
    show s2.id2row[_]? = some b
    rw [List.getElem?_eq_getElem this, List.getElem_idxOf this]
  rw [ic.vectors k a b phrase _ _ hk e1 e2 j hj]
  exact hfit _ hm j hj

/-- **C105** `Dilation`: if the phrase vectors of the training triples are the dilations of their words by one and the same
factor, the model trained on them composes every training phrase to its phrase vector. -/
theorem C105_dilation (env : Env) (c : Composer κ) (l0 : ℝ) (hc : c.model = .dilation l0)
    (data : List (Triple κ)) (args : ArgSpace κ) (s1 s2 p : Space κ) (n : ℕ)
    (hx : args.extract = .ok (s1, s2)) (h1 : s1.WF) (h2 : s2.WF) (hp : p.WF) (hn : 0 < n)
    (n1 : s1.mat.nc = n) (n2 : s2.mat.nc = n) (n3 : p.mat.nc = n) (hv : trainTriples s1 s2 p data ≠ [])
    (hnd : ((knownTriples s1 s2 data).map (·.2.2)).Nodup) (mu : ℝ)
    (hgen : Fitted s1 s2 p (trainTriples s1 s2 p data) (dilationVec n mu)) :
    ∃ c' r, c.train env data args p = .ok c' ∧ (c'.compose data args).2 = .ok r ∧
      GivesBack p (knownTriples s1 s2 data) r := by
  obtain ⟨lam, ht, hmin, _⟩ := C49_dilation env c l0 hc data args s1 s2 p n hx h1 h2 hp hn n1 n2 n3 hv
  have hfit := trainError_fitted.1 ((hmin mu).trans (trainError_fitted.2 hgen))
  obtain ⟨r, hr, rep⟩ := reproduces_of_fitted (⟨.dilation lam, some p.id2col⟩ : Composer κ) data args s1 s2 p hx h1 h2 hp
    ⟨by omega, by omega, by omega, by omega, by omega⟩ rfl hv hnd (by rw [n1]; exact hfit)
  exact ⟨_, r, ht, hr, rep⟩

/-- **C105** `WeightedAdditive` with a correct pseudo-inverse, when the phrase space has fewer than 15 rows (otherwise
trailing samples may be ignored, see C48). -/
theorem C105_weighted (env : Env) (c : Composer κ) (a0 b0 : ℝ) (hc : c.model = .weighted a0 b0)
    (data : List (Triple κ)) (args : ArgSpace κ) (s1 s2 p : Space κ) (n : ℕ)
    (hx : args.extract = .ok (s1, s2)) (h1 : s1.WF) (h2 : s2.WF) (hp : p.WF) (hn : 0 < n)
    (n1 : s1.mat.nc = n) (n2 : s2.mat.nc = n) (n3 : p.mat.nc = n) (hrows : p.mat.nr < 15)
    (hv : trainTriples s1 s2 p data ≠ []) (hnd : ((knownTriples s1 s2 data).map (·.2.2)).Nodup) (P : Mat ℝ)
    (hP : env.npPinv (gram2 s1 s2 n (trainTriples s1 s2 p data)) = .ok P)
    (hpin : IsPinv (gram2 s1 s2 n (trainTriples s1 s2 p data)) P) (a b : ℝ)
    (hgen : Fitted s1 s2 p (trainTriples s1 s2 p data) (weightedVec a b)) :
    ∃ c' r, c.train env data args p = .ok c' ∧ (c'.compose data args).2 = .ok r ∧
      GivesBack p (knownTriples s1 s2 data) r := by
  obtain ⟨a', b', ht, hmin⟩ := C48_whole_chunks_partial env c a0 b0 hc data args s1 s2 p n hx h1 h2 hp hn n1 n2 n3 hv
    (by rw [Nat.div_eq_of_lt hrows]; exact one_dvd _) P hP hpin
  have hfit := trainError_fitted.1 ((hmin a b).trans (trainError_fitted.2 hgen))
  obtain ⟨r, hr, rep⟩ := reproduces_of_fitted (⟨.weighted a' b', some p.id2col⟩ : Composer κ) data args s1 s2 p hx h1 h2 hp
    ⟨by omega, by omega, by omega, by omega, by omega⟩ rfl hv hnd hfit
  exact ⟨_, r, ht, hr, rep⟩

/-- The least-squares learner with correct back ends, for either matrix class. -/
theorem lstsq_learner (env : Env) (ic : Bool) (ty : MTy) (H Ph : Mat ℝ) (hr : H.nr = Ph.nr) (h1 : 0 < H.nr)
    (h2 : 0 < H.nc) (h3 : 0 < Ph.nc) (hls : ∃ X, env.npLstsq (design H ic) Ph = .ok X ∧ IsLstsq (design H ic) Ph X) (P : Mat ℝ)
    (hP : env.npPinv (ridgeGram (design H ic) 0 false) = .ok P) (hpin : IsPinv (ridgeGram (design H ic) 0 false) P) :
    ∃ X : TMat ℝ, (Learner.lstsq ic).train env ⟨ty, H⟩ ⟨ty, Ph⟩ = .ok X ∧ X.ty = ty ∧ X.nr = numCoef H ic ∧
      X.nc = Ph.nc ∧ ∀ Y : Mat ℝ, sqResid H Ph X.val ic ≤ sqResid H Ph Y ic := by
  cases ty with
  | dense => exact C52_dense env ⟨.dense, H⟩ ⟨.dense, Ph⟩ ic rfl rfl hr h1 h2 h3 hls
  | sparse => exact C52_sparse env ⟨.sparse, H⟩ ⟨.sparse, Ph⟩ ic rfl rfl hr h1 h2 h3 P hP hpin

/-- **C105** `FullAdditive` with the least-squares learner and correct back ends: if the phrase vectors are an affine
function of the two words' vectors (linear when there is no intercept), they are reproduced. -/
theorem C105_full_additive (env : Env) (c : Composer κ) (at0 bt0 : Option (TMat ℝ)) (i0 ic : Bool)
    (hc : c.model = .fullAdditive at0 bt0 i0 (some (.lstsq ic))) (data : List (Triple κ)) (args : ArgSpace κ)
    (s1 s2 p : Space κ) (hx : args.extract = .ok (s1, s2)) (h1 : s1.WF) (h2 : s2.WF) (hp : p.WF)
    (n1 : 0 < s1.mat.nc) (n2 : 0 < s2.mat.nc) (n3 : 0 < p.mat.nc) (hv : trainTriples s1 s2 p data ≠ [])
    (hnd : ((knownTriples s1 s2 data).map (·.2.2)).Nodup)
    (H Ph : Mat ℝ) (hH : H = pairRows s1 s2 (trainTriples s1 s2 p data))
    (hPh : Ph = phraseRows p (trainTriples s1 s2 p data))
    (hls : ∃ X, env.npLstsq (design H ic) Ph = .ok X ∧ IsLstsq (design H ic) Ph X) (P : Mat ℝ)
    (hP : env.npPinv (ridgeGram (design H ic) 0 false) = .ok P) (hpin : IsPinv (ridgeGram (design H ic) 0 false) P)
    (A B : ℕ → ℕ → ℝ) (d : ℕ → ℝ) (hd : ic = false → ∀ j, d j = 0)
    (hgen : Fitted s1 s2 p (trainTriples s1 s2 p data) (affineVec s1.mat.nc s2.mat.nc A B d)) :
    ∃ c' r, c.train env data args p = .ok c' ∧ (c'.compose data args).2 = .ok r ∧
      GivesBack p (knownTriples s1 s2 data) r := by
  subst hH hPh
  obtain ⟨ty, h⟩ := C44_full_additive env c at0 bt0 i0 (.lstsq ic) hc data args s1 s2 p hx h1 h2 hp n1 n2 n3 hv
  have hpos : 0 < (trainTriples s1 s2 p data).length := List.length_pos_iff.2 hv
  obtain ⟨X, e, _, e1, e2, e3⟩ := lstsq_learner env ic ty (pairRows s1 s2 (trainTriples s1 s2 p data))
    (phraseRows p (trainTriples s1 s2 p data)) rfl hpos (show 0 < s1.mat.nc + s2.mat.nc by omega) n3 hls P hP hpin
  obtain ⟨c', hc', hcol, hvec, hcomp⟩ := h X e e1 e2
  obtain ⟨r, hr, r1, r2, r3, r4, r5⟩ := hcomp args s1 s2 data hx h1 h2 rfl rfl (train_known_ne hv) hnd
  refine ⟨c', r, hc', hr, r1, r2, r3, r4, ?_⟩
  -- the generating rule as a coefficient matrix
  let N := s1.mat.nc + s2.mat.nc
  let Y : Mat ℝ := Mat.of (N + 1) p.mat.nc (fun k j =>
    if k < s1.mat.nc then A j k else if k < N then B j (k - s1.mat.nc) else d j)
  have hY : ∀ u v, ∀ j < p.mat.nc,
      predictVec (s1.mat.nc + s2.mat.nc) Y.get ic (joinVec s1.mat.nc u v) j = affineVec s1.mat.nc s2.mat.nc A B d u v j := by
    intro u v j hj
    simp only [affineVec, predictVec, dot]
    rw [Finset.sum_range_add]
    congr 1
    · congr 1
      · refine Finset.sum_congr rfl (fun k hk => ?_)
        have hk' := Finset.mem_range.1 hk
        rw [joinVec, if_pos hk', Mat.of_get_lt (by omega) hj, if_pos hk', mul_comm]
      · refine Finset.sum_congr rfl (fun k hk => ?_)
        have hk' := Finset.mem_range.1 hk
        rw [joinVec, if_neg (by omega), Mat.of_get_lt (by omega) hj, if_neg (by omega), if_pos (by omega), mul_comm,
          Nat.add_sub_cancel_left]
    · cases ic with
      | true => 
        rw [if_pos rfl, Mat.of_get_lt (by omega) hj, if_neg (by omega), if_neg (by omega)]
      | false => rw [hd rfl j]; simp
  have hgenY : Fitted s1 s2 p (trainTriples s1 s2 p data)
      (fun u v => predictVec (s1.mat.nc + s2.mat.nc) Y.get ic (joinVec s1.mat.nc u v)) := by
    intro t ht j hj
    rw [← hgen t ht j hj]
    exact hY _ _ j hj
  have hfit : Fitted s1 s2 p (trainTriples s1 s2 p data)
      (fun u v => predictVec (s1.mat.nc + s2.mat.nc) X.val.get ic (joinVec s1.mat.nc u v)) := by
    refine trainError_fitted.1 (le_trans ?_ (trainError_fitted.2 hgenY))
    rw [trainError_eq_sqResid, trainError_eq_sqResid]
    exact e3 Y
  intro k a b phrase hk hph j hj
  rw [r5 k a b phrase hk j hj]
  exact hfit _ (known_train hk hph) j hj

/-- A zero residual means that every sample is predicted exactly. -/
theorem sqResid_zero {A B X : Mat ℝ} {ic : Bool} (h : sqResid A B X ic ≤ 0) :
    ∀ i < A.nr, ∀ j < B.nc, predict A X ic i j = B.get i j := by
  intro i hi j hj
  have h0 : sqResid A B X ic = 0 :=
    le_antisymm h (Finset.sum_nonneg fun i _ => Finset.sum_nonneg fun j _ => sq_nonneg _)
  have h1 := (Finset.sum_eq_zero_iff_of_nonneg
    (fun i _ => Finset.sum_nonneg fun j _ => sq_nonneg _)).1 h0 i (Finset.mem_range.2 hi)
  have h2 := (Finset.sum_eq_zero_iff_of_nonneg (fun j _ => sq_nonneg _)).1 h1 j (Finset.mem_range.2 hj)
  have := pow_eq_zero_iff (two_ne_zero) |>.1 h2
  linarith

/-- **C105** `LexicalFunction` with the least-squares learner and correct back ends: if for every function word with
enough samples there is one affine map (linear when there is no intercept) taking each of its arguments to the phrase
vector, then training and composing the training triples gives every training phrase of such a word its phrase vector. -/
theorem C105_lexical (env : Env) (le : κ → κ → Bool) (htrans : ∀ a b c, le a b = true → le b c = true → le a c = true)
    (htotal : ∀ a b, (le a b || le b a) = true) (hanti : ∀ a b, le a b = true → le b a = true → a = b)
    (m : LexFun κ) (ic : Bool) (hl : m.learner = .lstsq ic) (data : List (Triple κ)) (arg phrase : Space κ)
    (ha : arg.WF) (hp : phrase.WF)
    (na : 0 < arg.mat.nc) (np : 0 < phrase.mat.nc) (hsh : arg.elemShape = [arg.mat.nc]) (hpsh : phrase.elemShape ≠ [])
    (hms : 1 ≤ m.minSamples)
    (hex : ∃ f, m.minSamples ≤ ((lexSamples arg phrase data f).length : ℤ))
    (hback : ∀ f, m.minSamples ≤ ((lexSamples arg phrase data f).length : ℤ) →
      let H := argRows arg (lexSamples arg phrase data f)
      let Ph := phraseRows phrase (lexSamples arg phrase data f)
      (∃ X, env.npLstsq (design H ic) Ph = .ok X ∧ IsLstsq (design H ic) Ph X) ∧
      ∃ P, env.npPinv (ridgeGram (design H ic) 0 false) = .ok P ∧ IsPinv (ridgeGram (design H ic) 0 false) P)
    (known : List (Triple κ))
    (hknown : known = data.filter (fun t => decide
      (m.minSamples ≤ ((lexSamples arg phrase data t.1).length : ℤ) ∧ t.2.1 ∈ arg.id2row)))
    (hnd : (known.map (·.2.2)).Nodup)
    (A : κ → ℕ → ℕ → ℝ) (d : κ → ℕ → ℝ) (hd : ic = false → ∀ f j, d f j = 0)
    (hgen : ∀ f, m.minSamples ≤ ((lexSamples arg phrase data f).length : ℤ) → ∀ t ∈ lexSamples arg phrase data f,
      ∀ j < phrase.mat.nc, dot arg.mat.nc (A f j) (arg.vecOf t.2.1) + d f j = phrase.vecOf t.2.2 j) :
    ∃ m' r, m.train env le data arg phrase = .ok m' ∧ m'.compose data arg = .ok r ∧ GivesBack phrase known r := by
  classical
  have hlen : ∀ f, m.minSamples ≤ ((lexSamples arg phrase data f).length : ℤ) →
      0 < (lexSamples arg phrase data f).length := fun f hf => by omega
  have hXex : ∀ f, ∃ X : TMat ℝ, m.minSamples ≤ ((lexSamples arg phrase data f).length : ℤ) →
      m.learner.train env ⟨lexTy arg phrase, argRows arg (lexSamples arg phrase data f)⟩
        ⟨lexTy arg phrase, phraseRows phrase (lexSamples arg phrase data f)⟩ = .ok X ∧ X.ty = lexTy arg phrase ∧
      X.nr = numCoef (argRows arg (lexSamples arg phrase data f)) ic ∧ X.nc = phrase.mat.nc ∧
      ∀ Y : Mat ℝ, sqResid (argRows arg (lexSamples arg phrase data f)) (phraseRows phrase (lexSamples arg phrase data f))
        X.val ic ≤ sqResid (argRows arg (lexSamples arg phrase data f))
          (phraseRows phrase (lexSamples arg phrase data f)) Y ic := by
    intro f
    by_cases hf : m.minSamples ≤ ((lexSamples arg phrase data f).length : ℤ)
    · obtain ⟨b1, P, b2, b3⟩ := hback f hf
      obtain ⟨X, hX⟩ := lstsq_learner env ic (lexTy arg phrase) (argRows arg (lexSamples arg phrase data f))
        (phraseRows phrase (lexSamples arg phrase data f)) rfl (hlen f hf) na np b1 P b2 b3
      exact ⟨X, fun _ => by rw [hl]; exact hX⟩
    · exact ⟨⟨.dense, zero2⟩, fun h => absurd h hf⟩
  choose X hX using hXex
  have hic : m.learner.hasIntercept = ic := by rw [hl]; rfl
  have hne : known ≠ [] := by
    obtain ⟨f, hf⟩ := hex
    obtain ⟨t, ht⟩ := List.exists_mem_of_length_pos (hlen f hf)
    rw [lexSamples, List.mem_filter, decide_eq_true_eq] at ht
    refine List.ne_nil_of_mem (a := t) ?_
    rw [hknown, List.mem_filter, decide_eq_true_eq, ht.2.1]
    exact ⟨ht.1, hf, ht.2.2.1⟩
  obtain ⟨m', r, t1, t2, t3, t4, t5, t6, t7⟩ := C46_train_compose env le htrans htotal hanti m data arg phrase ha hp na np
    hsh hpsh hms hex X (fun f hf => ⟨(hX f hf).1, (hX f hf).2.1, by rw [hic]; exact (hX f hf).2.2.1, (hX f hf).2.2.2.1⟩)
    data arg ha rfl known hknown hne hnd
  refine ⟨m', r, t1, t2, t3, t4, t5, ?_, ?_⟩
  · rw [← t3.shape, t6, hp.shape]
  intro k f w ph hk hph j hj
  rw [t7 k f w ph hk j hj, hic]
  have hmem : (f, w, ph) ∈ known := List.mem_of_getElem? hk
  rw [hknown, List.mem_filter, decide_eq_true_eq] at hmem
  obtain ⟨hdat, hf, hw⟩ := hmem
  have hsam : (f, w, ph) ∈ lexSamples arg phrase data f := by
    rw [lexSamples, List.mem_filter, decide_eq_true_eq]
    exact ⟨hdat, rfl, hw, hph⟩
  set l := lexSamples arg phrase data f with hldef
  let Y : Mat ℝ := Mat.of (arg.mat.nc + 1) phrase.mat.nc (fun k j => if k < arg.mat.nc then A f j k else d f j)
  have hpred : ∀ (Z : Mat ℝ) (i : ℕ) (t : Triple κ), l[i]? = some t → i < l.length → ∀ j,
      predict (argRows arg l) Z ic i j = predictVec arg.mat.nc Z.get ic (arg.vecOf t.2.1) j := by
    intro Z i t hi hlt j
    unfold predict predictVec
    congr 1
    refine Finset.sum_congr rfl (fun q hq => ?_)
    congr 1
    unfold argRows
    rw [Mat.of_get_lt hlt (Finset.mem_range.1 hq), hi]
  have hphr : ∀ (i : ℕ) (t : Triple κ), l[i]? = some t → i < l.length → ∀ j < phrase.mat.nc,
      (phraseRows phrase l).get i j = phrase.vecOf t.2.2 j := by
    intro i t hi hlt j hj
    unfold phraseRows
    rw [Mat.of_get_lt hlt hj, hi]
  have hYz : sqResid (argRows arg l) (phraseRows phrase l) Y ic ≤ 0 := by
    unfold sqResid
    refine le_of_eq (Finset.sum_eq_zero fun i hi => Finset.sum_eq_zero fun j hj => ?_)
    have hi' : i < l.length := Finset.mem_range.1 hi
    have hj' : j < phrase.mat.nc := Finset.mem_range.1 hj
    have hget := List.getElem?_eq_getElem hi'
    rw [hpred Y i _ hget hi', hphr i _ hget hi' j hj', ← hgen f hf _ (List.getElem_mem hi') j hj']
    have : predictVec arg.mat.nc Y.get ic (arg.vecOf l[i].2.1) j =
        dot arg.mat.nc (A f j) (arg.vecOf l[i].2.1) + d f j := by
      unfold predictVec dot
      congr 1
      · refine Finset.sum_congr rfl (fun q hq => ?_)
        have hq' := Finset.mem_range.1 hq
        rw [Mat.of_get_lt (by omega) hj', if_pos hq', mul_comm]
      · cases ic with
        | true => rw [if_pos rfl, Mat.of_get_lt (by omega) hj', if_neg (by omega)]
        | false => rw [hd rfl f j]; simp
    rw [this, sub_self]
    ring
  obtain ⟨i, hi, hit⟩ := List.mem_iff_getElem.1 hsam
  have hget : l[i]? = some (f, w, ph) := by rw [List.getElem?_eq_getElem hi, hit]
  have := sqResid_zero (((hX f hf).2.2.2.2 Y).trans hYz) i hi j hj
  rw [hpred _ i _ hget hi, hphr i _ hget hi j hj] at this
  exact this

/-! ## Non-vacuity -/

/-- Four words; the vector of word `i` is `(i+1)`. -/
theorem count4_ok : ∃ s : Space ℕ, s.WF ∧ s.mat.nc = 1 ∧ s.mat.nr = 4 ∧ s.id2row = [0, 1, 2, 3] ∧ s.elemShape = [1] ∧
    ∀ w, w < 4 → s.vecOf w 0 = (w : ℝ) + 1 := by
  obtain ⟨s, s1, s2, s3, _, s5⟩ := exists_space (Mat.of 4 1 (fun i _ => (i : ℝ) + 1)) [0, 1, 2, 3] (by simp) rfl none
    (by simp)
  refine ⟨s, s1, by rw [s2]; rfl, by rw [s2]; rfl, s3, s5, fun w hw => ?_⟩
  unfold Space.vecOf
  rw [s2, s3]
  have : [0, 1, 2, 3].idxOf w = w := by
    have : w = 0 ∨ w = 1 ∨ w = 2 ∨ w = 3 := by omega
    rcases this with rfl | rfl | rfl | rfl <;> rfl
  rw [this, Mat.of_get_lt hw Nat.one_pos]

/-- non-vacuity of C105_dilation: `(1)` dilated along `(2)`, phrase vector `(4)`: the factor is 2, i.e. 1·2+(2-1)·2·1. -/
example : ∃ (s : Space ℕ) (data : List (Triple ℕ)), s.WF ∧ s.mat.nc = 1 ∧ (ArgSpace.one s).extract = .ok (s, s) ∧
    trainTriples s s s data ≠ [] ∧ ((knownTriples s s data).map (·.2.2)).Nodup ∧
    Fitted s s s (trainTriples s s s data) (dilationVec 1 2) := by
  obtain ⟨s, wf, nc, nr, rows, _, hv⟩ := count4_ok
  have ht : trainTriples s s s [(0, 1, 3), (7, 1, 2)] = [(0, 1, 3)] := by unfold trainTriples; rw [rows]; rfl
  have hk : knownTriples s s [(0, 1, 3), (7, 1, 2)] = [(0, 1, 3)] := by unfold knownTriples; rw [rows]; rfl
  refine ⟨s, [(0, 1, 3), (7, 1, 2)], wf, nc, (extract_iff _ _ _).2 (Or.inl ⟨rfl, rfl⟩), by rw [ht]; simp,
    by rw [hk]; simp, ?_⟩
  rw [ht]
  intro t h j hj
  rw [List.mem_singleton] at h
  subst h
  obtain rfl : j = 0 := by omega
  simp [dilationVec, dot, hv]
  norm_num

/-- non-vacuity of C105_weighted: `(4) = 1·(1) + 3/2·(2)`, and a pseudo-inverse of the 2×2 Gram matrix. -/
example : ∃ (env : Env) (s : Space ℕ) (data : List (Triple ℕ)) (P : Mat ℝ), s.WF ∧ s.mat.nc = 1 ∧ s.mat.nr < 15 ∧
    (ArgSpace.one s).extract = .ok (s, s) ∧
    trainTriples s s s data ≠ [] ∧ ((knownTriples s s data).map (·.2.2)).Nodup ∧
    env.npPinv (gram2 s s 1 (trainTriples s s s data)) = .ok P ∧ IsPinv (gram2 s s 1 (trainTriples s s s data)) P ∧
    Fitted s s s (trainTriples s s s data) (weightedVec 1 (3 / 2)) := by
  obtain ⟨s, wf, nc, nr, rows, _, hv⟩ := count4_ok
  have ht : trainTriples s s s [(0, 1, 3), (7, 1, 2)] = [(0, 1, 3)] := by unfold trainTriples; rw [rows]; rfl
  have hk : knownTriples s s [(0, 1, 3), (7, 1, 2)] = [(0, 1, 3)] := by unfold knownTriples; rw [rows]; rfl
  have hg : gram2 s s 1 [(0, 1, 3)] = Mat.of 2 2 (fun i j => ((i : ℝ) + 1) * (j + 1)) := by
    refine Mat.ext' rfl rfl (fun i j hi hj => ?_)
    have hi' : i < 2 := hi
    have hj' : j < 2 := hj
    unfold gram2
    rw [Mat.of_get_lt hi' hj', Mat.of_get_lt hi' hj']
    have : i = 0 ∨ i = 1 := by omega
    have : j = 0 ∨ j = 1 := by omega
    rcases ‹i = 0 ∨ i = 1› with rfl | rfl <;> rcases ‹j = 0 ∨ j = 1› with rfl | rfl <;>
      simp [dot, hv] <;> norm_num
  let P : Mat ℝ := Mat.of 2 2 (fun i j => ((i : ℝ) + 1) * (j + 1) / 25)
  refine ⟨⟨fun A => .ok (A, [], A), fun A _ => .ok (A, [], A), fun _ => .ok P, fun A _ => .ok A⟩, s, [(0, 1, 3), (7, 1, 2)], P, wf, nc,
    by omega, (extract_iff _ _ _).2 (Or.inl ⟨rfl, rfl⟩), by rw [ht]; simp, by rw [hk]; simp, rfl, ?_, ?_⟩
  · rw [ht, hg]
    refine ⟨rfl, rfl, ?_, ?_, ?_, ?_⟩ <;>
    · refine Mat.ext' rfl rfl (fun i j hi hj => ?_)
      have hi' : i < 2 := hi
      have hj' : j < 2 := hj
      have : i = 0 ∨ i = 1 := by omega
      have : j = 0 ∨ j = 1 := by omega
      rcases ‹i = 0 ∨ i = 1› with rfl | rfl <;> rcases ‹j = 0 ∨ j = 1› with rfl | rfl <;>
        simp [Mat.mul_get, Mat.of_get, Finset.sum_range_succ, P] <;> norm_num
  · rw [ht]
    intro t h j hj
    rw [List.mem_singleton] at h
    subst h
    obtain rfl : j = 0 := by omega
    simp [weightedVec, hv]
    norm_num

/-- non-vacuity of C105_full_additive and C105_lexical (hypotheses about the generating rule): the phrase `(4)` of `(1)` and
`(2)` is `2·(1) + 1·(2)`, and the phrases of the function word 9 double its arguments. The back-end hypotheses are those of
C44 and C46. -/
example : ∃ (s : Space ℕ) (data : List (Triple ℕ)) (A B : ℕ → ℕ → ℝ) (data' : List (Triple ℕ)), s.WF ∧
    trainTriples s s s data ≠ [] ∧ ((knownTriples s s data).map (·.2.2)).Nodup ∧
    Fitted s s s (trainTriples s s s data) (affineVec s.mat.nc s.mat.nc A B (fun _ => 0)) ∧
    lexSamples s s data' 9 = [(9, 0, 1), (9, 1, 3)] ∧
    ∀ t ∈ lexSamples s s data' 9, ∀ j < s.mat.nc, dot s.mat.nc (A j) (s.vecOf t.2.1) + 0 = s.vecOf t.2.2 j := by
  obtain ⟨s, wf, nc, nr, rows, _, hv⟩ := count4_ok
  have ht : trainTriples s s s [(0, 1, 3), (7, 1, 2)] = [(0, 1, 3)] := by unfold trainTriples; rw [rows]; rfl
  have hk : knownTriples s s [(0, 1, 3), (7, 1, 2)] = [(0, 1, 3)] := by unfold knownTriples; rw [rows]; rfl
  have hl : lexSamples s s [(9, 0, 1), (9, 6, 3), (9, 1, 3)] 9 = [(9, 0, 1), (9, 1, 3)] := by
    unfold lexSamples; rw [rows]; rfl
  refine ⟨s, [(0, 1, 3), (7, 1, 2)], fun _ _ => 2, fun _ _ => 1, [(9, 0, 1), (9, 6, 3), (9, 1, 3)], wf, by rw [ht]; simp,
    by rw [hk]; simp, ?_, hl, ?_⟩
  · rw [ht, nc]
    intro t h j hj
    rw [List.mem_singleton] at h
    subst h
    obtain rfl : j = 0 := by omega
    simp [affineVec, dot, hv]
    norm_num
  · rw [hl, nc]
    intro t h j hj
    obtain rfl : j = 0 := by omega
    simp only [List.mem_cons, List.not_mem_nil, or_false] at h
    rcases h with rfl | rfl <;> simp [dot, hv] <;> norm_num

end
end Dissect
