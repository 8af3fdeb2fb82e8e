import Verif.Lemmas.Regression

/-! # Regression: C51 (ridge), C52 (least squares), C53 (generalised cross validation), C54 (configuration) -/

namespace Dissect
open Finset

/-- Diagonal entry `i` of the hat matrix `W P Wᵀ`. -/
noncomputable def hatDiag (W P : Mat ℝ) (i : ℕ) : ℝ :=
  ∑ k ∈ range W.nc, ∑ l ∈ range W.nc, W.get i k * P.get k l * W.get i l

/-- **C51** for every pair of non-empty matrices with the same number of rows, of either class, every `λ ≥ 0`, with and
without intercept: if the pseudo-inverse computed by the back end is correct, `ridge_regression` succeeds; the returned
matrix minimises the ridge objective among *all* coefficient matrices, the returned error is `‖AX - B‖`, and the
returned trace is the trace of the hat matrix. -/
theorem C51_ridge (env : Env) (a b : TMat ℝ) (lam : ℝ) (ic : Bool) (hty : a.ty = b.ty) (hr : a.nr = b.nr)
    (h1 : 0 < a.nr) (h2 : 0 < a.nc) (h3 : 0 < b.nc) (hlam : 0 ≤ lam) (P : Mat ℝ)
    (hP : env.npPinv (ridgeGram a.val lam ic) = .ok P) (hpin : IsPinv (ridgeGram a.val lam ic) P) :
    ∃ x tr err, ridgeRegression env a b lam ic = .ok (x, tr, err) ∧
      x.ty = a.ty ∧ x.nr = numCoef a.val ic ∧ x.nc = b.nc ∧
      (∀ Y : Mat ℝ, ridgeObjective a.val b.val x.val lam ic ≤ ridgeObjective a.val b.val Y lam ic) ∧
      err = Real.sqrt (sqResid a.val b.val x.val ic) ∧
      tr = ∑ i ∈ range a.nr, hatDiag (design a.val ic) P i := by
  have hPr : P.nr = numCoef a.val ic := hpin.nr
  have hPc : P.nc = numCoef a.val ic := hpin.nc
  refine ⟨_, _, _, ridgeRegression_ok env a b lam ic hty hr h1 h2 h3 P hP hPr hPc, rfl, hPr, rfl,
    fun Y => ridge_min a.val b.val P lam hlam ic hr hpin Y, ?_, ?_⟩
  · unfold TMat.norm sqResid
    congr 1
    refine Finset.sum_congr rfl fun i hi => Finset.sum_congr rfl fun j _ => ?_
    have hi' : i < a.nr := Finset.mem_range.1 hi
    rw [predict_eq _ _ _ _ _ hi']
    show (((design a.val ic).mul _).sub b.val).get i j ^ 2 = _
    rw [Mat.sub_get (A := (design a.val ic).mul ((P.mul (design a.val ic).transpose).mul b.val)) hr rfl]
    rfl
  · unfold Mat.total
    rw [Finset.sum_comm]
    refine Finset.sum_congr rfl fun i hi => ?_
    unfold hatDiag
    refine Finset.sum_congr rfl fun k _ => ?_
    simp only [Mat.had_get, Mat.transpose_get, Mat.mul_get, Finset.mul_sum]
    rw [hPc]
    refine Finset.sum_congr rfl fun l _ => by ring

/-! ### A concrete back end: all matrices involved are 1×1 -/

/-- 1×1 matrix. -/
noncomputable def one1 (x : ℝ) : Mat ℝ := Mat.of 1 1 (fun _ _ => x)

theorem one1_eq {A : Mat ℝ} (hr : A.nr = 1) (hc : A.nc = 1) : A = one1 (A.get 0 0) := by
  refine Mat.ext' hr hc fun i j hi hj => ?_
  obtain rfl : i = 0 := by omega
  obtain rfl : j = 0 := by omega
  rfl

theorem one1_mul (x y : ℝ) : (one1 x).mul (one1 y) = one1 (x * y) := by
  rw [one1_eq (A := (one1 x).mul (one1 y)) rfl rfl]
  congr 1
  simp [one1, Mat.of_get]

/-- The pseudo-inverse of a 1×1 matrix. -/
theorem one1_pinv {x : ℝ} (hx : x ≠ 0) : IsPinv (one1 x) (one1 x⁻¹) :=
  ⟨rfl, rfl, by rw [one1_mul, one1_mul, mul_inv_cancel₀ hx, one_mul],
    by rw [one1_mul, one1_mul, inv_mul_cancel₀ hx, one_mul], by rw [one1_mul]; exact one1_eq rfl rfl,
    by rw [one1_mul]; exact one1_eq rfl rfl⟩

/-- A back end that inverts 1×1 matrices. -/
noncomputable def pinvEnv : Env where
  npSvd := fun A => .ok (A, [], A)
  sparseSvd := fun A _ => .ok (A, [], A)
  npPinv := fun A => .ok (one1 (A.get 0 0)⁻¹)
  npLstsq := fun A B => .ok (one1 ((A.get 0 0)⁻¹ * B.get 0 0))

theorem ridgeGram_one (x lam : ℝ) : ridgeGram (one1 x) lam false = one1 (x * x + lam) := by
  rw [one1_eq (A := ridgeGram (one1 x) lam false) rfl rfl]
  congr 1
  unfold ridgeGram
  rw [design_false]
  simp [Mat.of_get, numCoef, one1]

/-- Non-vacuity of C51: `A = (2)`, `B = (6)`, `λ = 2` meets all hypotheses. -/
example : ∃ (env : Env) (a b : TMat ℝ) (P : Mat ℝ), a.ty = b.ty ∧ a.nr = b.nr ∧ 0 < a.nr ∧ 0 < a.nc ∧ 0 < b.nc ∧
    env.npPinv (ridgeGram a.val 2 false) = .ok P ∧ IsPinv (ridgeGram a.val 2 false) P := by
  refine ⟨pinvEnv, ⟨.dense, one1 2⟩, ⟨.dense, one1 6⟩, one1 (6 : ℝ)⁻¹, rfl, rfl, Nat.one_pos, Nat.one_pos,
    Nat.one_pos, ?_, ?_⟩
  · rw [ridgeGram_one]
    norm_num [pinvEnv, one1, Mat.of_get]
  · rw [ridgeGram_one]
    have := one1_pinv (x := 6) (by norm_num)
    norm_num at this ⊢
    exact this

/-! ## C52 -/

theorem numCoef_false (A : Mat ℝ) : numCoef A false = A.nc := rfl

/-- The squared residual of the problem with an added column of ones is the one with intercept. -/
theorem sqResid_design (A B X : Mat ℝ) (ic : Bool) : sqResid (design A ic) B X false = sqResid A B X ic := by
  unfold sqResid
  refine Finset.sum_congr rfl fun i hi => Finset.sum_congr rfl fun j _ => ?_
  rw [predict_eq A X ic i j (Finset.mem_range.1 hi)]
  simp [predict]

/-- **C52** dense input: given that numpy's `lstsq` solves the least-squares problem it is given, the result minimises
`‖AX - B‖²`, with the intercept among the unknowns when asked for. -/
theorem C52_dense (env : Env) (a b : TMat ℝ) (ic : Bool) (ha : a.ty = .dense) (hb : b.ty = .dense) (hr : a.nr = b.nr)
    (h1 : 0 < a.nr) (h2 : 0 < a.nc) (h3 : 0 < b.nc)
    (hls : ∃ X, env.npLstsq (design a.val ic) b.val = .ok X ∧ IsLstsq (design a.val ic) b.val X) :
    ∃ x, lstsqRegression env a b ic = .ok x ∧ x.ty = .dense ∧ x.nr = numCoef a.val ic ∧ x.nc = b.nc ∧
      ∀ Y : Mat ℝ, sqResid a.val b.val x.val ic ≤ sqResid a.val b.val Y ic := by
  have hd : 0 < numCoef a.val ic := by unfold numCoef; split <;> omega
  obtain ⟨X, he, hls⟩ := hls
  refine ⟨⟨.dense, X⟩, ?_, rfl, hls.nr, hls.nc, fun Y => ?_⟩
  · unfold lstsqRegression TMat.assertSameType TMat.assertSameRows
    rw [if_pos (ha.trans hb.symm), ok_bind, if_pos hr, ok_bind, addOnes_ok a ic h1, ok_bind, ha]
    simp only
    rw [he, ok_bind]
    exact TMat.ofNumpy_ok (by rw [hls.nr]; exact hd) (by rw [hls.nc]; exact h3)
  · have := hls.min Y
    rwa [sqResid_design, sqResid_design] at this

/-- **C52** sparse input: given a correct pseudo-inverse, the same. -/
theorem C52_sparse (env : Env) (a b : TMat ℝ) (ic : Bool) (ha : a.ty = .sparse) (hb : b.ty = .sparse) (hr : a.nr = b.nr)
    (h1 : 0 < a.nr) (h2 : 0 < a.nc) (h3 : 0 < b.nc) (P : Mat ℝ)
    (hP : env.npPinv (ridgeGram (design a.val ic) 0 false) = .ok P)
    (hpin : IsPinv (ridgeGram (design a.val ic) 0 false) P) :
    ∃ x, lstsqRegression env a b ic = .ok x ∧ x.ty = .sparse ∧ x.nr = numCoef a.val ic ∧ x.nc = b.nc ∧
      ∀ Y : Mat ℝ, sqResid a.val b.val x.val ic ≤ sqResid a.val b.val Y ic := by
  have hd : 0 < numCoef a.val ic := by unfold numCoef; split <;> omega
  obtain ⟨x, tr, err, hx, e1, e2, e3, hmin, _⟩ := C51_ridge env ⟨.sparse, design a.val ic⟩ b 0 false hb.symm hr h1 hd h3
    le_rfl P hP hpin
  refine ⟨x, ?_, e1, e2, e3, fun Y => ?_⟩
  · unfold lstsqRegression TMat.assertSameType TMat.assertSameRows
    rw [if_pos (ha.trans hb.symm), ok_bind, if_pos hr, ok_bind, addOnes_ok a ic h1, ok_bind, ha]
    simp only
    rw [hx]
    rfl
  · have := hmin Y
    simp only [ridgeObjective, zero_mul, add_zero] at this
    rwa [sqResid_design, sqResid_design] at this

/-- **C51/C52** training matrices of different classes raise `TypeError`; of one class but with different numbers of
samples, `ValueError`; for both kinds of regression, with or without intercept, whatever the parameter. -/
theorem C52_mismatch (env : Env) (a b : TMat ℝ) (lam : ℝ) (ic : Bool) :
    (a.ty ≠ b.ty → lstsqRegression env a b ic = .error .typeError ∧ ridgeRegression env a b lam ic = .error .typeError) ∧
    (a.ty = b.ty → a.nr ≠ b.nr →
      lstsqRegression env a b ic = .error .valueError ∧ ridgeRegression env a b lam ic = .error .valueError) := by
  constructor
  · intro h
    unfold lstsqRegression ridgeRegression TMat.assertSameType
    rw [if_neg h]
    exact ⟨rfl, rfl⟩
  · intro h hr
    unfold lstsqRegression ridgeRegression TMat.assertSameType TMat.assertSameRows
    rw [if_pos h, if_neg hr]
    exact ⟨rfl, rfl⟩

example : (⟨.dense, Mat.of 2 1 (fun _ _ => 1)⟩ : TMat ℝ).ty = (⟨.dense, Mat.of 3 1 (fun _ _ => 1)⟩ : TMat ℝ).ty ∧
    (⟨.dense, Mat.of 2 1 (fun _ _ => 1)⟩ : TMat ℝ).nr ≠ (⟨.dense, Mat.of 3 1 (fun _ _ => 1)⟩ : TMat ℝ).nr :=
  ⟨rfl, by simp [TMat.nr]⟩

/-- **C52** the dense and the sparse solution of the same problem have the same error. -/
theorem C52_same_error (env : Env) (a b : TMat ℝ) (ic : Bool) (ha : a.ty = .dense) (hb : b.ty = .dense) (hr : a.nr = b.nr)
    (h1 : 0 < a.nr) (h2 : 0 < a.nc) (h3 : 0 < b.nc)
    (hls : ∃ X, env.npLstsq (design a.val ic) b.val = .ok X ∧ IsLstsq (design a.val ic) b.val X) (P : Mat ℝ)
    (hP : env.npPinv (ridgeGram (design a.val ic) 0 false) = .ok P)
    (hpin : IsPinv (ridgeGram (design a.val ic) 0 false) P) :
    ∃ x y, lstsqRegression env a b ic = .ok x ∧ lstsqRegression env ⟨.sparse, a.val⟩ ⟨.sparse, b.val⟩ ic = .ok y ∧
      sqResid a.val b.val x.val ic = sqResid a.val b.val y.val ic := by
  obtain ⟨x, hx, _, _, _, hxm⟩ := C52_dense env a b ic ha hb hr h1 h2 h3 hls
  obtain ⟨y, hy, _, _, _, hym⟩ := C52_sparse env ⟨.sparse, a.val⟩ ⟨.sparse, b.val⟩ ic rfl rfl hr h1 h2 h3 P hP hpin
  exact ⟨x, y, hx, hy, le_antisymm (hxm _) (hym _)⟩

/-- Non-vacuity of C52: `2 x ≈ 6`. -/
example : (∃ X, pinvEnv.npLstsq (one1 2) (one1 6) = .ok X ∧ IsLstsq (one1 2) (one1 6) X) ∧
    pinvEnv.npPinv (ridgeGram (design (one1 2) false) 0 false) = .ok (one1 (4 : ℝ)⁻¹) ∧
    IsPinv (ridgeGram (design (one1 2) false) 0 false) (one1 (4 : ℝ)⁻¹) := by
  refine ⟨⟨one1 (((one1 2).get 0 0)⁻¹ * (one1 6).get 0 0), rfl, rfl, rfl, fun Y => ?_⟩, ?_, ?_⟩
  · have h0 : sqResid (one1 2) (one1 6) (one1 (((one1 2).get 0 0)⁻¹ * (one1 6).get 0 0)) false = 0 := by
      simp [sqResid, predict, one1, Mat.of_get]
    rw [h0]
    exact Finset.sum_nonneg fun i _ => Finset.sum_nonneg fun j _ => sq_nonneg _
  · rw [design_false, ridgeGram_one]
    norm_num [pinvEnv, one1, Mat.of_get]
  · rw [design_false, ridgeGram_one]
    have := one1_pinv (x := 4) (by norm_num)
    norm_num at this ⊢
    exact this

/-! ## C53 -/

/-- The GCV error of parameter `p` for a given trace and residual norm on `n` samples, where it is defined. -/
noncomputable def gcvScore (n : ℕ) (tr err : ℝ) : Option ℝ :=
  if (1 - tr / (n : ℝ)) ^ 2 * (n : ℝ) = 0 then none else some (err ^ 2 / ((1 - tr / (n : ℝ)) ^ 2 * (n : ℝ)))

/-- `p` is the first parameter of `l` with the least score among those that have one; `0` when none has. -/
def FirstMin (score : ℝ → Option ℝ) (l : List ℝ) (p : ℝ) : Prop :=
  (∃ pre post g, l = pre ++ p :: post ∧ score p = some g ∧
    (∀ q ∈ pre, ∀ h, score q = some h → g < h) ∧ (∀ q ∈ post, ∀ h, score q = some h → g ≤ h)) ∨
  ((∀ q ∈ l, score q = none) ∧ p = 0)

/-- The score of parameter `p`: the GCV error computed from what `ridge_regression` reports. -/
noncomputable def ridgeScore (env : Env) (a b : TMat ℝ) (ic : Bool) (p : ℝ) : Option ℝ :=
  match ridgeRegression env a b p ic with
  | .ok (_, tr, err) => gcvScore a.nr tr err
  | .error _ => none

/-- Loop invariant: after the parameters `done`. -/
structure GcvInv (score : ℝ → Option ℝ) (done : List ℝ) (st : Learner.GcvState) : Prop where
  first : (∃ pre post g, done = pre ++ st.minParam :: post ∧ score st.minParam = some g ∧ st.minErr = some g ∧
      (∀ q ∈ pre, ∀ h, score q = some h → g < h) ∧ (∀ q ∈ post, ∀ h, score q = some h → g ≤ h)) ∨
    (st.minErr = none ∧ (∀ q ∈ done, score q = none) ∧ st.minParam = 0)
  stale : Learner.ltInf st.gcvErr st.minErr = false

theorem gcvStep_inv {env : Env} {a b : TMat ℝ} {ic : Bool} {done : List ℝ} {st st' : Learner.GcvState} {p : ℝ}
    (h : GcvInv (ridgeScore env a b ic) done st) (hst : Learner.gcvStep env a b ic st p = .ok st') :
    GcvInv (ridgeScore env a b ic) (done ++ [p]) st' := by
  unfold Learner.gcvStep at hst
  rw [bind_eq_ok] at hst
  obtain ⟨⟨x, tr, err⟩, hrr, hst⟩ := hst
  have hsc : ridgeScore env a b ic p = gcvScore a.nr tr err := by unfold ridgeScore; rw [hrr]
  revert h
  generalize ridgeScore env a b ic = score at hsc ⊢
  intro h
  unfold gcvScore at hsc
  simp only at hst
  by_cases hnom : (1 - tr / (a.nr : ℝ)) ^ 2 * (a.nr : ℝ) = 0
  · -- no score: `gcv_err` is the stale one, which cannot win
    rw [if_pos hnom] at hsc
    rw [if_neg (not_not.2 hnom), h.stale] at hst
    have := ok_inj hst
    subst this
    refine ⟨?_, h.stale⟩
    rcases h.first with ⟨pre, post, g, e1, e2, e3, e4, e5⟩ | ⟨e1, e2, e3⟩
    · refine Or.inl ⟨pre, post ++ [p], g, by rw [e1]; simp, e2, e3, e4, fun q hq k hk => ?_⟩
      rcases List.mem_append.1 hq with hq | hq
      · exact e5 q hq k hk
      · rw [List.mem_singleton.1 hq, hsc] at hk; cases hk
    · refine Or.inr ⟨e1, fun q hq => ?_, e3⟩
      rcases List.mem_append.1 hq with hq | hq
      · exact e2 q hq
      · rw [List.mem_singleton.1 hq, hsc]
  · rw [if_neg hnom] at hsc
    rw [if_pos hnom, ← pow_two, ← hsc] at hst
    set v := err ^ 2 / ((1 - tr / (a.nr : ℝ)) ^ 2 * (a.nr : ℝ)) with hv
    by_cases hlt : Learner.ltInf (score p) st.minErr = true
    · rw [if_pos hlt] at hst
      have := ok_inj hst
      subst this
      refine ⟨Or.inl ⟨done, [], v, rfl, hsc, hsc, fun q hq k hk => ?_, by simp⟩, ?_⟩
      · rcases h.first with ⟨pre, post, g, e1, e2, e3, e4, e5⟩ | ⟨e1, e2, e3⟩
        · rw [hsc, e3] at hlt
          simp only [Learner.ltInf, decide_eq_true_eq] at hlt
          rw [e1] at hq
          rcases List.mem_append.1 hq with hq | hq
          · exact hlt.trans (e4 q hq k hk)
          · rcases List.mem_cons.1 hq with rfl | hq
            · rw [e2, Option.some.injEq] at hk
              rw [← hk]; exact hlt
            · exact lt_of_lt_of_le hlt (e5 q hq k hk)
        · rw [e2 q hq] at hk; cases hk
      · simp only [hsc, Learner.ltInf]
        simp
    · rw [if_neg hlt] at hst
      have := ok_inj hst
      subst this
      refine ⟨?_, by simpa using hlt⟩
      rcases h.first with ⟨pre, post, g, e1, e2, e3, e4, e5⟩ | ⟨e1, e2, e3⟩
      · refine Or.inl ⟨pre, post ++ [p], g, by rw [e1]; simp, e2, e3, e4, fun q hq k hk => ?_⟩
        rcases List.mem_append.1 hq with hq | hq
        · exact e5 q hq k hk
        · rw [List.mem_singleton.1 hq, hsc, Option.some.injEq] at hk
          rw [hsc, e3] at hlt
          simp only [Learner.ltInf, decide_eq_true_eq, not_lt] at hlt
          rw [← hk]; exact hlt
      · exfalso; apply hlt; rw [hsc, e1]; rfl

theorem gcvLoop_inv {env : Env} {a b : TMat ℝ} {ic : Bool} (l : List ℝ) : ∀ {done : List ℝ} {st st' : Learner.GcvState},
    GcvInv (ridgeScore env a b ic) done st → Learner.gcvLoop env a b ic st l = .ok st' →
    GcvInv (ridgeScore env a b ic) (done ++ l) st' := by
  induction l with
  | nil =>
    intro done st st' h hl
    rw [List.append_nil, ← ok_inj hl]; exact h
  | cons p ps ih =>
    intro done st st' h hl
    simp only [Learner.gcvLoop, bind_eq_ok] at hl
    obtain ⟨s1, h1, h2⟩ := hl
    have := ih (gcvStep_inv h h1) h2
    simpa using this

theorem gcvLoop_ok {env : Env} {a b : TMat ℝ} {ic : Bool} (l : List ℝ) : ∀ (st : Learner.GcvState),
    (∀ p ∈ l, ∃ r, ridgeRegression env a b p ic = .ok r) → ∃ st', Learner.gcvLoop env a b ic st l = .ok st' := by
  induction l with
  | nil => intro st _; exact ⟨st, rfl⟩
  | cons p ps ih =>
    intro st h
    obtain ⟨r, hr⟩ := h p (by simp)
    have : ∃ s1, Learner.gcvStep env a b ic st p = .ok s1 := by
      unfold Learner.gcvStep
      rw [hr, ok_bind]
      simp only
      split <;> split <;> exact ⟨_, rfl⟩
    obtain ⟨s1, h1⟩ := this
    obtain ⟨s2, h2⟩ := ih s1 (fun q hq => h q (by simp [hq]))
    exact ⟨s2, by simp only [Learner.gcvLoop]; rw [h1, ok_bind, h2]⟩

/-- **C53** whenever a cross-validating ridge learner returns a solution, it is the ridge solution for the first
parameter of the range with minimal GCV error among those where it is defined, and for parameter `0` when it is
defined for none. -/
theorem C53_first_minimiser (env : Env) (a b : TMat ℝ) (ic : Bool) (range : List ℝ) (param : Option ℝ) (x : TMat ℝ)
    (h : (Learner.ridge ic true range param).train env a b = .ok x) :
    ∃ p tr err, FirstMin (ridgeScore env a b ic) range p ∧ ridgeRegression env a b p ic = .ok (x, tr, err) := by
  simp only [Learner.train, bind_eq_ok, pure_eq_ok] at h
  obtain ⟨st, hl, ⟨x', tr, err⟩, hr, hx⟩ := h
  have hx := ok_inj hx
  subst hx
  have hinv := gcvLoop_inv range (done := []) (st := ⟨0, none, none⟩) ⟨Or.inr ⟨rfl, by simp, rfl⟩, rfl⟩ hl
  refine ⟨st.minParam, tr, err, ?_, hr⟩
  rcases hinv.first with ⟨pre, post, g, e1, e2, _, e4, e5⟩ | ⟨_, e2, e3⟩
  · exact Or.inl ⟨pre, post, g, e1, e2, e4, e5⟩
  · exact Or.inr ⟨e2, e3⟩

/-- **C53** and a solution is returned whenever the ridge regressions themselves succeed. -/
theorem C53_succeeds (env : Env) (a b : TMat ℝ) (ic : Bool) (range : List ℝ) (param : Option ℝ)
    (h : ∀ p ∈ 0 :: range, ∃ r, ridgeRegression env a b p ic = .ok r) :
    ∃ x, (Learner.ridge ic true range param).train env a b = .ok x := by
  obtain ⟨st, hst⟩ := gcvLoop_ok range ⟨0, none, none⟩ (fun p hp => h p (by simp [hp]))
  have hinv := gcvLoop_inv range (done := []) (st := ⟨0, none, none⟩) ⟨Or.inr ⟨rfl, by simp, rfl⟩, rfl⟩ hst
  have hmem : st.minParam ∈ 0 :: range := by
    rcases hinv.first with ⟨pre, post, g, e1, _⟩ | ⟨_, _, e3⟩
    · have e1' : range = pre ++ st.minParam :: post := e1
      rw [e1']; simp
    · rw [e3]; simp
  obtain ⟨r, hr⟩ := h _ hmem
  exact ⟨r.1, by simp only [Learner.train]; rw [hst, ok_bind, hr]; rfl⟩

/-- Non-vacuity of C53: on the problem `2 x ≈ 6` all ridge regressions with the parameters `0, 1, 2` succeed. -/
example : ∀ p ∈ (0 : ℝ) :: [1, 2], ∃ r, ridgeRegression pinvEnv ⟨.dense, one1 2⟩ ⟨.dense, one1 6⟩ p false = .ok r := by
  intro p hp
  exact ⟨_, ridgeRegression_ok pinvEnv ⟨.dense, one1 2⟩ ⟨.dense, one1 6⟩ p false rfl rfl Nat.one_pos Nat.one_pos
    Nat.one_pos _ rfl rfl rfl⟩

/-! ## C54 -/

/-- **C54** unknown keyword arguments are rejected. -/
theorem C54_unknown_keyword (a : Learner.RidgeArgs)
    (h : ∃ k ∈ a.names, k ∉ ["intercept", "param_range", "crossvalidation", "param"]) :
    Learner.newRidge a = .error .invalidArgumentError := by
  obtain ⟨k, hk, hn⟩ := h
  have : assertValidKwargs a.names ["intercept", "param_range", "crossvalidation", "param"] =
      .error .invalidArgumentError := by
    unfold assertValidKwargs
    rw [if_neg]
    rw [List.all_eq_true]
    intro hall
    exact hn (by simpa using hall k hk)
  unfold Learner.newRidge
  rw [this, error_bind]

/-- Whether the documented configuration cross-validates: the explicit argument wins; otherwise it does unless a
parameter is given. -/
def crossValidates (a : Learner.RidgeArgs) : Bool :=
  match a.crossvalidation with
  | some c => c
  | none => match a.param with
    | some (some _) => false
    | _ => true

/-- **C54** with known keywords: the learner is built iff it cross-validates or has a parameter (`ValueError`
otherwise), it cross-validates exactly as documented, keeps the given parameter, and uses the given intercept flag and
range or their defaults (an intercept; the eleven values from 0 to 5). -/
theorem C54_configuration (a : Learner.RidgeArgs)
    (hk : ∀ k ∈ a.names, k ∈ ["intercept", "param_range", "crossvalidation", "param"]) :
    Learner.newRidge a =
      if crossValidates a = false ∧ a.param.join = none then .error .valueError
      else .ok (.ridge (a.intercept.getD true) (crossValidates a) (a.paramRange.join.getD lambdaGrid)
        a.param.join) := by
  have : assertValidKwargs a.names ["intercept", "param_range", "crossvalidation", "param"] = .ok () := by
    unfold assertValidKwargs
    rw [if_pos]
    rw [List.all_eq_true]
    intro x hx
    simpa using hk x hx
  unfold Learner.newRidge crossValidates
  rw [this, ok_bind, ← defaultRange_eq]
  rcases a with ⟨n, i, r, p, c⟩
  rcases r with _ | _ | r <;> rcases p with _ | _ | p <;> rcases c with _ | c <;>
    simp [Option.join, Learner.defaultRange, pure_eq_ok]

/-- Non-vacuity of C54: `RidgeRegressionLearner()`, `RidgeRegressionLearner(param=3)`,
`RidgeRegressionLearner(crossvalidation=False)`. -/
example : Learner.newRidge ⟨[], none, none, none, none⟩ = .ok (.ridge true true lambdaGrid none) ∧
    Learner.newRidge ⟨["param"], none, none, some (some 3), none⟩ =
      .ok (.ridge true false lambdaGrid (some 3)) ∧
    Learner.newRidge ⟨["crossvalidation"], none, none, none, some false⟩ = .error .valueError := by
  refine ⟨?_, ?_, ?_⟩
  · rw [C54_configuration _ (by simp)]; simp [crossValidates]
  · rw [C54_configuration _ (by simp)]; simp [crossValidates, Option.join]
  · rw [C54_configuration _ (by simp)]; simp [crossValidates]

end Dissect
