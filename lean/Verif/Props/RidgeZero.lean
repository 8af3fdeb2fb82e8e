import Verif.Props.IdealTrain
import Verif.Props.Repeat
import Verif.Props.RidgePath

/-! # C147: least squares, dense or sparse, and ridge regression with parameter 0 are one learner -/

namespace Dissect
open Finset
noncomputable section
variable {κ : Type} [DecidableEq κ]

/-! ### The pseudo-inverse through the Gram matrix -/

theorem ridgeGram_symm (W : Mat ℝ) (lam : ℝ) (ic : Bool) : (ridgeGram W lam ic).transpose = ridgeGram W lam ic := by
  refine Mat.ext' rfl rfl (fun i j hi hj => ?_)
  have hi' : i < numCoef W ic := hi
  have hj' : j < numCoef W ic := hj
  rw [Mat.transpose_get]
  unfold ridgeGram
  rw [Mat.of_get_lt hj' hi', Mat.of_get_lt hi' hj']
  congr 1
  · exact Finset.sum_congr rfl fun k _ => mul_comm _ _
  · by_cases h : i = j
    · subst h; rfl
    · rw [if_neg (fun q => h q.1.symm), if_neg (fun q => h q.1)]

theorem pinv_symm {M P : Mat ℝ} (hM : M.transpose = M) (hP : IsPinv M P) : P.transpose = P := by
  have hsq : M.nr = M.nc := congrArg Mat.nc hM
  refine IsPinv.unique (M := M) ⟨hP.nc.trans hsq, hP.nr.trans hsq.symm, ?_, ?_, ?_, ?_⟩ hP
  · have := congrArg Mat.transpose hP.one
    rw [Mat.transpose_mul' (A := M.mul P) (B := M) hP.nc, Mat.transpose_mul' (A := M) (B := P) hP.nr.symm, hM,
      ← Mat.mul_assoc'] at this
    exact this
  · have := congrArg Mat.transpose hP.two
    rw [Mat.transpose_mul' (A := P.mul M) (B := P) hP.nr.symm, Mat.transpose_mul' (A := P) (B := M) hP.nc, hM,
      ← Mat.mul_assoc'] at this
    exact this
  · have e : M.mul P.transpose = (P.mul M).transpose := by
      rw [Mat.transpose_mul' (A := P) (B := M) hP.nc, hM]
    rw [e, hP.four, hP.four]
  · have e : P.transpose.mul M = (M.mul P).transpose := by
      rw [Mat.transpose_mul' (A := M) (B := P) hP.nr.symm, hM]
    rw [e, hP.three, hP.three]

/-- A pseudo-inverse of `WᵀW` times `Wᵀ` is the pseudo-inverse of `W`. -/
theorem pinv_of_gram {W P : Mat ℝ} (hP : IsPinv (W.transpose.mul W) P) : IsPinv W (P.mul W.transpose) := by
  have hs : P.transpose = P := by
    refine pinv_symm ?_ hP
    rw [Mat.transpose_mul' (A := W.transpose) (B := W) rfl]
    rfl
  have pr : P.nr = W.nc := hP.nr
  have pc : P.nc = W.nc := hP.nc
  set w := W.toM W.nr W.nc with hw
  set p := P.toM W.nc W.nc with hp
  have hm : (W.transpose.mul W).toM W.nc W.nc = w.transpose * w := Mat.toM_mul _ _ _ W.nr _ rfl
  have hpt : p.transpose = p := by
    rw [hp, ← Mat.toM_transpose, hs]
  have q1 : w.transpose * w * p * (w.transpose * w) = w.transpose * w := by
    have := congrArg (fun X : Mat ℝ => X.toM W.nc W.nc) hP.one
    beta_reduce at this
    rwa [Mat.toM_mul ((W.transpose.mul W).mul P) (W.transpose.mul W) _ W.nc _ pc, Mat.toM_mul (W.transpose.mul W) P _ W.nc _ rfl, hm] at this
  have q2 : p * (w.transpose * w) * p = p := by
    have := congrArg (fun X : Mat ℝ => X.toM W.nc W.nc) hP.two
    beta_reduce at this
    rwa [Mat.toM_mul (P.mul (W.transpose.mul W)) P _ W.nc _ rfl, Mat.toM_mul P (W.transpose.mul W) _ W.nc _ pc, hm] at this
  have q3 : (w.transpose * w * p).transpose = w.transpose * w * p := by
    have := congrArg (fun X : Mat ℝ => X.toM W.nc W.nc) hP.three
    simp only [Mat.toM_transpose] at this
    rwa [Mat.toM_mul (W.transpose.mul W) P _ W.nc _ rfl, hm] at this
  have q4 : (p * (w.transpose * w)).transpose = p * (w.transpose * w) := by
    have := congrArg (fun X : Mat ℝ => X.toM W.nc W.nc) hP.four
    simp only [Mat.toM_transpose] at this
    rwa [Mat.toM_mul P (W.transpose.mul W) _ W.nc _ pc, hm] at this
  have key : w.transpose * w * p * w.transpose = w.transpose :=
    pinv_gram w (fun _ => 0) (fun _ => le_rfl) (w.transpose * w) p (by simp) q1 q3
  have hx : (P.mul W.transpose).toM W.nc W.nr = p * w.transpose := Mat.toM_mul _ _ _ _ _ pc
  refine isPinv_of_toM (n := W.nr) (m := W.nc) rfl rfl pr rfl ?_ ?_ ?_ ?_
  · rw [hx]
    have := congrArg Matrix.transpose key
    simp only [Matrix.transpose_mul, Matrix.transpose_transpose, hpt] at this
    show w * (p * w.transpose) * w = w
    rw [← Matrix.mul_assoc] at this
    simpa [Matrix.mul_assoc] using this
  · rw [hx]
    show p * w.transpose * w * (p * w.transpose) = p * w.transpose
    conv_rhs => rw [← q2]
    simp only [Matrix.mul_assoc]
  · rw [hx]
    show (w * (p * w.transpose)).transpose = w * (p * w.transpose)
    simp only [Matrix.transpose_mul, Matrix.transpose_transpose, hpt, Matrix.mul_assoc]
  · rw [hx]
    show (p * w.transpose * w).transpose = p * w.transpose * w
    rw [Matrix.mul_assoc, q4]

theorem ridgeGram_zero (A : Mat ℝ) (ic : Bool) : ridgeGram A 0 ic = (design A ic).transpose.mul (design A ic) := by
  refine Mat.ext' rfl rfl (fun i j hi hj => ?_)
  have hi' : i < numCoef A ic := hi
  have hj' : j < numCoef A ic := hj
  unfold ridgeGram
  rw [Mat.of_get_lt hi' hj', Mat.mul_get]
  simp only [ite_self, add_zero]
  rfl

theorem design_false' (A : Mat ℝ) : design A false = A := by
  refine Mat.ext' rfl rfl (fun i j hi hj => ?_)
  have hj' : j < A.nc := hj
  unfold design
  rw [Mat.of_get_lt (by exact hi) (by exact hj'), if_pos hj']

/-- The shortest least-squares solution is unique. -/
theorem minNorm_unique {A B X Y : Mat ℝ} (hX : IsMinNormLstsq A B X) (hY : IsMinNormLstsq A B Y) : X = Y := by
  refine shortest_unique (R := fun Z => sqResid A B Z false) (hY.solves.nr.trans hX.solves.nr.symm)
    (hY.solves.nc.trans hX.solves.nc.symm) ?_ (le_antisymm (hX.solves.min Y) (hY.solves.min X)) hX.shortest hY.shortest
  have h1 := hX.solves.min Y
  have h2 := hY.solves.min X
  have key : 4 * sqResid A B (midMat X Y) false ≤ 2 * sqResid A B X false + 2 * sqResid A B Y false := by
    unfold sqResid
    rw [Finset.mul_sum, Finset.mul_sum, Finset.mul_sum, ← Finset.sum_add_distrib]
    refine Finset.sum_le_sum fun i _ => ?_
    rw [Finset.mul_sum, Finset.mul_sum, Finset.mul_sum, ← Finset.sum_add_distrib]
    refine Finset.sum_le_sum fun j hj => ?_
    have hp : predict A (midMat X Y) false i j = (predict A X false i j + predict A Y false i j) / 2 := by
      unfold predict
      simp only [Bool.false_eq_true, if_false, add_zero]
      rw [← Finset.sum_add_distrib, Finset.sum_div]
      refine Finset.sum_congr rfl fun k hk => ?_
      rw [midMat, Mat.of_get_lt (by rw [hX.solves.nr]; exact Finset.mem_range.1 hk)
        (by rw [hX.solves.nc]; exact Finset.mem_range.1 hj)]
      ring
    rw [hp]
    nlinarith [sq_nonneg (predict A X false i j - predict A Y false i j)]
  show sqResid A B (midMat X Y) false ≤ sqResid A B X false
  linarith

/-! ### The learners -/

/-- What every learner of this kind returns: the shortest least-squares solution of the design matrix. -/
theorem ridge_zero_result {env : Env} (henv : env.Ideal) (a b : TMat ℝ) (ic : Bool) (hty : a.ty = b.ty) (hr : a.nr = b.nr)
    (h1 : 0 < a.nr) (h2 : 0 < a.nc) (h3 : 0 < b.nc) :
    ∃ X tr err, ridgeRegression env a b 0 ic = .ok (⟨a.ty, X⟩, tr, err) ∧ IsMinNormLstsq (design a.val ic) b.val X := by
  obtain ⟨P, hP, hpin⟩ := henv.pinv (ridgeGram a.val 0 ic)
  refine ⟨_, _, _, ridgeRegression_ok env a b 0 ic hty hr h1 h2 h3 P hP hpin.nr hpin.nc, ?_⟩
  rw [ridgeGram_zero] at hpin
  exact minNorm_of_pinv (pinv_of_gram hpin)

theorem lstsq_result {env : Env} (henv : env.Ideal) (a b : TMat ℝ) (ic : Bool) (hty : a.ty = b.ty) (hr : a.nr = b.nr)
    (h1 : 0 < a.nr) (h2 : 0 < a.nc) (h3 : 0 < b.nc) :
    ∃ X, (Learner.lstsq ic).train env a b = .ok ⟨a.ty, X⟩ ∧ IsMinNormLstsq (design a.val ic) b.val X := by
  have hd : 0 < numCoef a.val ic := by unfold numCoef; unfold TMat.nc at h2; split <;> omega
  have hstart : ∀ r, (addOnes a ic >>= fun a' => match a'.ty with
      | .dense => (env.npLstsq a'.val b.val >>= fun x => TMat.ofNumpy .dense x)
      | .sparse => (ridgeRegression env a' b 0 false >>= fun r => pure r.1)) = .ok r →
      (Learner.lstsq ic).train env a b = .ok r := by
    intro r h
    show lstsqRegression env a b ic = .ok r
    unfold lstsqRegression TMat.assertSameType TMat.assertSameRows
    rw [if_pos hty, ok_bind, if_pos hr, ok_bind]
    exact h
  cases hta : a.ty with
  | dense =>
    obtain ⟨X, he, hX⟩ := henv.lstsq (design a.val ic) b.val
    refine ⟨X, hstart _ ?_, hX⟩
    rw [addOnes_ok a ic h1, ok_bind, hta]
    simp only
    rw [he, ok_bind]
    exact TMat.ofNumpy_ok (by rw [hX.solves.nr]; exact hd) (by rw [hX.solves.nc]; exact h3)
  | sparse =>
    obtain ⟨X, tr, err, he, hX⟩ := ridge_zero_result henv ⟨.sparse, design a.val ic⟩ b false (hta ▸ hty) hr h1 hd h3
    rw [design_false'] at hX
    refine ⟨X, hstart _ ?_, hX⟩
    rw [addOnes_ok a ic h1, ok_bind, hta]
    simp only
    rw [he, ok_bind]
    rfl

/-- **C147** a ridge learner with the parameter 0 returns exactly the coefficients of the least-squares learner: among the
solutions with the least squared error, the one of least length. It does not matter whether the parameter was given or is the
only value the learner chooses from by cross-validation. -/
theorem C147_ridge_zero (env : Env) (henv : env.Ideal) (a b : TMat ℝ) (ic : Bool) (rng : List ℝ) (par : Option ℝ)
    (hty : a.ty = b.ty) (hr : a.nr = b.nr) (h1 : 0 < a.nr) (h2 : 0 < a.nc) (h3 : 0 < b.nc) :
    ∃ X : TMat ℝ, (Learner.lstsq ic).train env a b = .ok X ∧
      (Learner.ridge ic false rng (some 0)).train env a b = .ok X ∧
      ((∀ q ∈ rng, q = 0) → (Learner.ridge ic true rng par).train env a b = .ok X) ∧
      X.ty = a.ty ∧ X.nr = numCoef a.val ic ∧ X.nc = b.nc ∧
      (∀ Y : Mat ℝ, sqResid a.val b.val X.val ic ≤ sqResid a.val b.val Y ic) ∧
      ∀ Y : Mat ℝ, Y.nr = X.nr → Y.nc = X.nc → sqResid a.val b.val Y ic ≤ sqResid a.val b.val X.val ic →
        frobSq X.val ≤ frobSq Y := by
  obtain ⟨X, e1, hX⟩ := lstsq_result henv a b ic hty hr h1 h2 h3
  obtain ⟨X', tr, err, e2, hX'⟩ := ridge_zero_result henv a b ic hty hr h1 h2 h3
  obtain rfl := minNorm_unique hX hX'
  refine ⟨⟨a.ty, X⟩, e1, ?_, ?_, rfl, hX.solves.nr, hX.solves.nc, fun Y => ?_, fun Y hr hc hY => ?_⟩
  · simp only [Learner.train, e2, ok_bind, pure_eq_ok]
  · intro hz
    have hall : ∀ p ∈ 0 :: rng, ∃ r, ridgeRegression env a b p ic = .ok r := by
      intro p _
      obtain ⟨x, tr, err, h, _⟩ := ridge_ideal henv a b p ic hty hr h1 h2 h3
      exact ⟨_, h⟩
    obtain ⟨Z, hZ⟩ := C53_succeeds env a b ic rng par hall
    obtain ⟨p, tr', err', hmin, hp⟩ := C53_first_minimiser env a b ic rng par Z hZ
    have hp0 : p = 0 := by
      rcases hmin with ⟨pre, post, g, hl, _⟩ | ⟨_, h⟩
      · exact hz p (by rw [hl]; simp)
      · exact h
    rw [hp0, e2] at hp
    have := ok_inj hp
    injection this with hx
    rw [hZ, ← hx]
  · have := hX.solves.min Y
    rwa [sqResid_design, sqResid_design] at this
  · refine hX.shortest Y hr hc ?_
    rw [sqResid_design, sqResid_design]
    exact hY

/-- **C147** the least-squares learner finds the same numbers whether the training data are dense or sparse, although two
different routines compute them. -/
theorem C147_dense_sparse (env : Env) (henv : env.Ideal) (a b : Mat ℝ) (ic : Bool) (hr : a.nr = b.nr) (h1 : 0 < a.nr)
    (h2 : 0 < a.nc) (h3 : 0 < b.nc) :
    ∃ X, ∀ ty, (Learner.lstsq ic).train env ⟨ty, a⟩ ⟨ty, b⟩ = .ok ⟨ty, X⟩ := by
  obtain ⟨X, e1, hX⟩ := lstsq_result henv ⟨.dense, a⟩ ⟨.dense, b⟩ ic rfl hr h1 h2 h3
  obtain ⟨Y, e2, hY⟩ := lstsq_result henv ⟨.sparse, a⟩ ⟨.sparse, b⟩ ic rfl hr h1 h2 h3
  obtain rfl := minNorm_unique hX hY
  refine ⟨X, fun ty => ?_⟩
  cases ty
  · exact e1
  · exact e2

/-! ### The models -/

/-- The two learners give the same coefficients on all training matrices a model hands them. -/
def SameLearner (env : Env) (l l' : Learner) : Prop :=
  l.hasIntercept = l'.hasIntercept ∧ ∀ a b : TMat ℝ, a.ty = b.ty → a.nr = b.nr → 0 < a.nr → 0 < a.nc → 0 < b.nc →
    l.train env a b = l'.train env a b

theorem same_ridge_zero {env : Env} (henv : env.Ideal) (ic : Bool) (rng : List ℝ) :
    SameLearner env (.lstsq ic) (.ridge ic false rng (some 0)) := by
  refine ⟨rfl, fun a b hty hr h1 h2 h3 => ?_⟩
  obtain ⟨X, e1, e2, _⟩ := C147_ridge_zero env henv a b ic rng none hty hr h1 h2 h3
  rw [e1, e2]

theorem same_ridge_grid {env : Env} (henv : env.Ideal) (ic : Bool) (rng : List ℝ) (par : Option ℝ) (hz : ∀ q ∈ rng, q = 0) :
    SameLearner env (.lstsq ic) (.ridge ic true rng par) := by
  refine ⟨rfl, fun a b hty hr h1 h2 h3 => ?_⟩
  obtain ⟨X, e1, _, e2, _⟩ := C147_ridge_zero env henv a b ic rng par hty hr h1 h2 h3
  rw [e1, e2 hz]

theorem full_same {env : Env} {l l' : Learner} (hl : SameLearner env l l') (c c' : Composer κ) (at0 bt0 at0' bt0' : Option (TMat ℝ))
    (i0 i0' : Bool) (hc : c.model = .fullAdditive at0 bt0 i0 (some l)) (hc' : c'.model = .fullAdditive at0' bt0' i0' (some l'))
    (data : List (Triple κ)) (args : ArgSpace κ) (s1 s2 p : Space κ) (hx : args.extract = .ok (s1, s2)) (h1 : s1.WF)
    (h2 : s2.WF) (hp : p.WF) (n1 : 0 < s1.mat.nc) (n2 : 0 < s2.mat.nc) (n3 : 0 < p.mat.nc) :
    (∃ e, c.train env data args p = .error e ∧ c'.train env data args p = .error e) ∨
    ∃ A B ic cols, c.train env data args p = .ok ⟨.fullAdditive A B ic (some l), cols⟩ ∧
      c'.train env data args p = .ok ⟨.fullAdditive A B ic (some l'), cols⟩ := by
  have ht : c.model.trainable = true := by rw [hc]; rfl
  have ht' : c'.model.trainable = true := by rw [hc']; rfl
  by_cases h0 : trainTriples s1 s2 p data = []
  · left
    rw [train_nothing env c data args s1 s2 p hx h1 h2 hp h0 ht, train_nothing env c' data args s1 s2 p hx h1 h2 hp h0 ht']
    exact ⟨_, rfl, rfl⟩
  · rw [train_reduce env c data args s1 s2 p hx h1 h2 hp h0 ht, train_reduce env c' data args s1 s2 p hx h1 h2 hp h0 ht', hc, hc',
      full_trainOn env h1 h2 hp n1 n2 n3 _ h0 (fun t ht => trainTriples_mem ht),
      full_trainOn env h1 h2 hp n1 n2 n3 _ h0 (fun t ht => trainTriples_mem ht), ← hl.1]
    have hpos : 0 < (trainTriples s1 s2 p data).length := List.length_pos_iff.2 h0
    rw [← hl.2 ⟨sampleTy s1 s2 p, rowsMat (s1.mat.nc + s2.mat.nc)
            (fun t => joinVec s1.mat.nc (s1.vecOf t.1) (s2.vecOf t.2.1)) (trainTriples s1 s2 p data)⟩
          ⟨sampleTy s1 s2 p, rowsMat p.mat.nc (fun t : Triple κ => p.vecOf t.2.2) (trainTriples s1 s2 p data)⟩ rfl rfl hpos
          (show 0 < s1.mat.nc + s2.mat.nc by omega) n3]
    cases l.train env ⟨sampleTy s1 s2 p, rowsMat (s1.mat.nc + s2.mat.nc)
            (fun t => joinVec s1.mat.nc (s1.vecOf t.1) (s2.vecOf t.2.1)) (trainTriples s1 s2 p data)⟩
          ⟨sampleTy s1 s2 p, rowsMat p.mat.nc (fun t : Triple κ => p.vecOf t.2.2) (trainTriples s1 s2 p data)⟩ with
    | error e => exact Or.inl ⟨e, rfl, rfl⟩
    | ok r =>
      simp only [ok_bind]
      cases splitRows r s1.mat.nc with
      | error e => exact Or.inl ⟨e, rfl, rfl⟩
      | ok q => exact Or.inr ⟨_, _, _, _, rfl, rfl⟩

theorem lexTrainLoop_same {env : Env} {l l' : Learner} (hl : SameLearner env l l') {arg phrase : Space κ} (ha : arg.WF)
    (hp : phrase.WF) (na : 0 < arg.mat.nc) (np : 0 < phrase.mat.nc) (v : List (Triple κ)) (size : ℕ)
    (ranges : List (ℕ × ℕ)) (hne : ∀ r ∈ ranges, (v.take r.2).drop r.1 ≠ [])
    (hmem : ∀ t ∈ v, t.2.1 ∈ arg.id2row ∧ t.2.2 ∈ phrase.id2row) :
    lexTrainLoop env l arg phrase (v.map (·.2.1)) (v.map (·.2.2)) size ranges =
      lexTrainLoop env l' arg phrase (v.map (·.2.1)) (v.map (·.2.2)) size ranges := by
  induction ranges with
  | nil => rfl
  | cons r ranges ih =>
    unfold lexTrainLoop
    simp only [slice, slice_map]
    have hS := hne r (by simp)
    have hm : ∀ t ∈ (v.take r.2).drop r.1, t.2.1 ∈ arg.id2row ∧ t.2.2 ∈ phrase.id2row :=
      fun t ht => hmem t (List.mem_of_mem_take (List.mem_of_mem_drop ht))
    rw [lexTrainOne_eq env l ha hp na np _ hS hm size, lexTrainOne_eq env l' ha hp na np _ hS hm size,
      hl.2 ⟨lexTy arg phrase, rowsMat arg.mat.nc (fun t : Triple κ => arg.vecOf t.2.1) ((v.take r.2).drop r.1)⟩
        ⟨lexTy arg phrase, rowsMat phrase.mat.nc (fun t : Triple κ => phrase.vecOf t.2.2) ((v.take r.2).drop r.1)⟩
        rfl rfl (List.length_pos_iff.2 hS) na np, ih (fun r hr => hne r (by simp [hr]))]

theorem lex_same {env : Env} {l l' : Learner} (hl : SameLearner env l l') (le : κ → κ → Bool)
    (htrans : ∀ a b c, le a b = true → le b c = true → le a c = true)
    (htotal : ∀ a b, (le a b || le b a) = true) (hanti : ∀ a b, le a b = true → le b a = true → a = b)
    (m m' : LexFun κ) (hm : m.learner = l) (hm' : m'.learner = l') (hmin : m'.minSamples = m.minSamples)
    (data : List (Triple κ)) (arg phrase : Space κ) (ha : arg.WF) (hp : phrase.WF) (na : 0 < arg.mat.nc)
    (np : 0 < phrase.mat.nc) (hms : 1 ≤ m.minSamples) :
    m'.train env le data arg phrase = (m.train env le data arg phrase).map (fun r => { r with learner := l' }) := by
  set V : List (Triple κ) := (data.mergeSort (fun x y => le x.1 y.1)).filter (fun t =>
      knownIn none t.1 && knownIn (some arg.row2id) t.2.1 && knownIn (some phrase.row2id) t.2.2) with hV
  have hsort : (V.map (·.1)).Pairwise (fun a b => le a b = true) := by
    rw [List.pairwise_map]
    exact (List.pairwise_mergeSort (le := fun x y : Triple κ => le x.1 y.1) (fun a b c => htrans _ _ _)
      (fun a b => htotal _ _) data).filter _
  obtain ⟨keys, ranges, g1, g2, g3, g4, g5, g6⟩ := partitions_sorted hanti V hsort m.minSamples hms
  have hmem : ∀ t ∈ V, t.2.1 ∈ arg.id2row ∧ t.2.2 ∈ phrase.id2row := by
    intro t ht
    have := (List.mem_filter.1 ht).2
    simp only [Bool.and_eq_true, knownIn, ha.rows.contains, hp.rows.contains, decide_eq_true_eq] at this
    exact ⟨this.1.2, this.2⟩
  have hne : ∀ r ∈ ranges, (V.take r.2).drop r.1 ≠ [] := by
    intro r hr h
    obtain ⟨i, hi, hri⟩ := List.mem_iff_getElem.1 hr
    have hik : i < keys.length := by omega
    have hr' : ranges[i]? = some r := by rw [List.getElem?_eq_getElem hi, hri]
    have e := g6 i r keys[i] hr' (List.getElem?_eq_getElem hik)
    have hcount := (g5 keys[i]).1 (List.getElem_mem hik)
    rw [← e, h] at hcount
    simp at hcount
    omega
  have hloop : ∀ size, lexTrainLoop env m'.learner arg phrase (V.map (·.2.1)) (V.map (·.2.2)) size ranges =
      lexTrainLoop env m.learner arg phrase (V.map (·.2.1)) (V.map (·.2.2)) size ranges := by
    intro size
    rw [hm, hm']
    exact (lexTrainLoop_same hl ha hp na np V size ranges hne hmem).symm
  have hic : m'.learner.hasIntercept = m.learner.hasIntercept := by rw [hm, hm', hl.1]
  subst hm hm'
  unfold LexFun.train
  simp only
  rw [validData_eq none (some arg.row2id) (some phrase.row2id) _ V rfl, hmin]
  by_cases h1 : data.mergeSort (fun x y => le x.1 y.1) = []
  · rw [if_pos h1]; rfl
  · rw [if_neg h1]
    by_cases h2 : V = []
    · rw [if_pos h2]; rfl
    · rw [if_neg h2]
      simp only [ok_bind]
      rw [g1]
      simp only [ok_bind, hloop, hic]
      by_cases hk : keys = []
      · rw [if_pos hk, if_pos hk]; rfl
      · rw [if_neg hk, if_neg hk]
        cases arg.elemShape with
        | nil => rfl
        | cons n t =>
          cases t with
          | cons _ _ => rfl
          | nil =>
            simp only
            cases lexTrainLoop env m.learner arg phrase (V.map (·.2.1)) (V.map (·.2.2))
              (phrase.elemShape ++ [if m.learner.hasIntercept then n + 1 else n]).prod ranges with
            | error e => rfl
            | ok rs =>
              simp only [ok_bind]
              cases rs.getLast? with
              | none => rfl
              | some x =>
                simp only
                cases TMat.naryVstack x.2 (rs.map Prod.fst) with
                | error e => rfl
                | ok mat =>
                  simp only [ok_bind]
                  cases Space.new mat keys [] none none [] (some (phrase.elemShape ++ [if m.learner.hasIntercept then n + 1 else n])) with
                  | error e => rfl
                  | ok fs => rfl

/-- The learner can be exchanged for another one: `l'` is a ridge learner with the parameter 0 (given, or the only choice of
cross-validation) with the intercept setting `ic`. -/
def RidgeZero (l' : Learner) (ic : Bool) : Prop :=
  ∃ rng, l' = .ridge ic false rng (some 0) ∨ ∃ par, l' = .ridge ic true rng par ∧ ∀ q ∈ rng, q = 0

theorem RidgeZero.same {env : Env} (henv : env.Ideal) {l' : Learner} {ic : Bool} (h : RidgeZero l' ic) :
    SameLearner env (.lstsq ic) l' := by
  obtain ⟨rng, rfl | ⟨par, rfl, hz⟩⟩ := h
  · exact same_ridge_zero henv ic rng
  · exact same_ridge_grid henv ic rng par hz

/-- **C147** so a `FullAdditive` model trained with one learner is, for its user, the one trained with the other: training
raises the same exception or succeeds, and the trained models answer every `compose` call alike. -/
theorem C147_full_additive (env : Env) (henv : env.Ideal) (ic : Bool) (l' : Learner) (hl : RidgeZero l' ic)
    (data : List (Triple κ)) (args : ArgSpace κ) (s1 s2 p : Space κ) (hx : args.extract = .ok (s1, s2)) (h1 : s1.WF)
    (h2 : s2.WF) (hp : p.WF) (n1 : 0 < s1.mat.nc) (n2 : 0 < s2.mat.nc) (n3 : 0 < p.mat.nc) :
    (∃ e, (newFullAdditiveLearner (.lstsq ic)).train env data args p = .error e ∧
      (newFullAdditiveLearner l').train env data args p = .error e) ∨
    ∃ c c', (newFullAdditiveLearner (.lstsq ic)).train env data args p = .ok c ∧
      (newFullAdditiveLearner l').train env data args p = .ok c' ∧
      ∀ data' args', (c.compose data' args').2 = (c'.compose data' args').2 := by
  rcases full_same (hl.same henv) (newFullAdditiveLearner (.lstsq ic)) (newFullAdditiveLearner l') none none none none _ _ rfl
    rfl data args s1 s2 p hx h1 h2 hp n1 n2 n3 with h | ⟨A, B, i, cols, e1, e2⟩
  · exact Or.inl h
  · refine Or.inr ⟨_, _, e1, e2, fun data' args' => ?_⟩
    unfold Composer.compose
    have hd : (CModel.fullAdditive A B i (some l')).composeData data' args' =
        (CModel.fullAdditive A B i (some (.lstsq ic))).composeData data' args' := rfl
    simp only [hd]
    cases (CModel.fullAdditive A B i (some (.lstsq ic))).composeData data' args' <;> rfl

/-- **C147** the same for `LexicalFunction`, whatever `min_samples ≥ 1` is set to: the two trained models hold the same function space, and answer every `compose`
call alike. -/
theorem C147_lexical (env : Env) (henv : env.Ideal) (le : κ → κ → Bool)
    (htrans : ∀ a b c, le a b = true → le b c = true → le a c = true)
    (htotal : ∀ a b, (le a b || le b a) = true) (hanti : ∀ a b, le a b = true → le b a = true → a = b)
    (ic : Bool) (l' : Learner) (hl : RidgeZero l' ic) (data : List (Triple κ)) (arg phrase : Space κ) (ha : arg.WF)
    (hp : phrase.WF) (na : 0 < arg.mat.nc) (np : 0 < phrase.mat.nc) (n : ℤ) (hn : 1 ≤ n) :
    (∃ e, ({ LexFun.ofLearner (.lstsq ic) with minSamples := n } : LexFun κ).train env le data arg phrase = .error e ∧
      ({ LexFun.ofLearner l' with minSamples := n } : LexFun κ).train env le data arg phrase = .error e) ∨
    ∃ m m', ({ LexFun.ofLearner (.lstsq ic) with minSamples := n } : LexFun κ).train env le data arg phrase = .ok m ∧
      ({ LexFun.ofLearner l' with minSamples := n } : LexFun κ).train env le data arg phrase = .ok m' ∧ m'.functions = m.functions ∧
      ∀ data' arg', m'.compose data' arg' = m.compose data' arg' := by
  have h := lex_same (hl.same henv) le htrans htotal hanti { LexFun.ofLearner (.lstsq ic) with minSamples := n }
    { LexFun.ofLearner l' with minSamples := n } rfl rfl rfl
    data arg phrase ha hp na np hn
  rw [h]
  cases ({ LexFun.ofLearner (.lstsq ic) with minSamples := n } : LexFun κ).train env le data arg phrase with
  | error e => exact Or.inl ⟨e, rfl, rfl⟩
  | ok m => exact Or.inr ⟨m, _, rfl, rfl, rfl, fun _ _ => rfl⟩

/-- non-vacuity: the two-row problem `[[0,2,4],[1,3,5]] X ≈ [[0,2,4],[1,3,5]]` with intercept, which has many solutions; the
learner with the grid `[0, 0]`. -/
example : ∃ X : TMat ℝ, (Learner.lstsq true).train idealEnv ⟨.sparse, exMat .dense |>.val⟩ ⟨.sparse, exMat .dense |>.val⟩ = .ok X ∧
    (Learner.ridge true true [0, 0] none).train idealEnv ⟨.sparse, exMat .dense |>.val⟩ ⟨.sparse, exMat .dense |>.val⟩ = .ok X ∧
    X.nr = 4 := by
  obtain ⟨X, e1, _, e2, _, e3, _⟩ := C147_ridge_zero idealEnv idealEnv_ideal ⟨.sparse, exMat .dense |>.val⟩
    ⟨.sparse, exMat .dense |>.val⟩ true [0, 0] none rfl rfl (show 0 < 2 by omega) (show 0 < 3 by omega) (show 0 < 3 by omega)
  exact ⟨X, e1, e2 (by simp), e3⟩

end
end Dissect
