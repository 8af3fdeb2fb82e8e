import Verif.Props.Regression

/-! # C119: what a larger ridge parameter does -/

namespace Dissect
open Finset
noncomputable section

/-- The pseudo-inverse used by the ridge regression with parameter `lam` is correct. -/
def PinvCallOk (env : Env) (a : Mat ℝ) (lam : ℝ) (ic : Bool) : Prop :=
  ∃ P, env.npPinv (ridgeGram a lam ic) = .ok P ∧ IsPinv (ridgeGram a lam ic) P

theorem ridge_trained {env : Env} {a b x : TMat ℝ} {lam : ℝ} {ic : Bool} {rng : List ℝ} (hty : a.ty = b.ty)
    (hr : a.nr = b.nr) (h1 : 0 < a.nr) (h2 : 0 < a.nc) (h3 : 0 < b.nc) (hlam : 0 ≤ lam) (hP : PinvCallOk env a.val lam ic)
    (h : (Learner.ridge ic false rng (some lam)).train env a b = .ok x) :
    ∀ Y : Mat ℝ, ridgeObjective a.val b.val x.val lam ic ≤ ridgeObjective a.val b.val Y lam ic := by
  obtain ⟨P, hP, hpin⟩ := hP
  obtain ⟨x', tr, err, hx, _, _, _, hmin, _⟩ := C51_ridge env a b lam ic hty hr h1 h2 h3 hlam P hP hpin
  simp only [Learner.train, hx, ok_bind, pure_eq_ok] at h
  obtain rfl := ok_inj h
  exact hmin

/-- **C119** of two ridge learners trained on the same data, the one with the larger parameter has coefficients whose squared
length (without the intercept) is not larger, and a training error that is not smaller. -/
theorem C119_larger_parameter (env : Env) (a b x y : TMat ℝ) (p q : ℝ) (ic : Bool) (r1 r2 : List ℝ) (hty : a.ty = b.ty)
    (hr : a.nr = b.nr) (h1 : 0 < a.nr) (h2 : 0 < a.nc) (h3 : 0 < b.nc) (hp : 0 ≤ p) (hpq : p < q)
    (hP : PinvCallOk env a.val p ic) (hQ : PinvCallOk env a.val q ic)
    (hx : (Learner.ridge ic false r1 (some p)).train env a b = .ok x)
    (hy : (Learner.ridge ic false r2 (some q)).train env a b = .ok y) :
    sqPenalty a.val b.val y.val ≤ sqPenalty a.val b.val x.val ∧
      sqResid a.val b.val x.val ic ≤ sqResid a.val b.val y.val ic := by
  have e1 := ridge_trained hty hr h1 h2 h3 hp hP hx y.val
  have e2 := ridge_trained hty hr h1 h2 h3 (hp.trans hpq.le) hQ hy x.val
  unfold ridgeObjective at e1 e2
  have hpen : sqPenalty a.val b.val y.val ≤ sqPenalty a.val b.val x.val := by
    by_contra hn
    push Not at hn
    have := mul_pos (sub_pos.2 hpq) (sub_pos.2 hn)
    nlinarith
  refine ⟨hpen, ?_⟩
  have := mul_le_mul_of_nonneg_left hpen hp
  linarith

theorem lstsq_least {env : Env} {a b y : TMat ℝ} {ic : Bool} (hty : a.ty = b.ty)
    (hr : a.nr = b.nr) (h1 : 0 < a.nr) (h2 : 0 < a.nc) (h3 : 0 < b.nc)
    (hls : ∃ X, env.npLstsq (design a.val ic) b.val = .ok X ∧ IsLstsq (design a.val ic) b.val X)
    (hP' : PinvCallOk env (design a.val ic) 0 false) (hy : (Learner.lstsq ic).train env a b = .ok y) :
    ∀ Y : Mat ℝ, sqResid a.val b.val y.val ic ≤ sqResid a.val b.val Y ic := by
  cases hta : a.ty with
  | dense =>
    obtain ⟨y', hy', _, _, _, hm⟩ := C52_dense env a b ic hta (hty ▸ hta) hr h1 h2 h3 hls
    rw [show (Learner.lstsq ic).train env a b = lstsqRegression env a b ic from rfl, hy'] at hy
    obtain rfl := ok_inj hy
    exact hm
  | sparse =>
    obtain ⟨P, hP, hpin⟩ := hP'
    obtain ⟨y', hy', _, _, _, hm⟩ := C52_sparse env a b ic hta (hty ▸ hta) hr h1 h2 h3 P hP hpin
    rw [show (Learner.lstsq ic).train env a b = lstsqRegression env a b ic from rfl, hy'] at hy
    obtain rfl := ok_inj hy
    exact hm

/-- **C119** parameter 0 is plain least squares: the same training error as `LstsqRegressionLearner`. -/
theorem C119_zero_is_lstsq (env : Env) (a b x y : TMat ℝ) (ic : Bool) (rng : List ℝ) (hty : a.ty = b.ty)
    (hr : a.nr = b.nr) (h1 : 0 < a.nr) (h2 : 0 < a.nc) (h3 : 0 < b.nc) (hP : PinvCallOk env a.val 0 ic)
    (hls : ∃ X, env.npLstsq (design a.val ic) b.val = .ok X ∧ IsLstsq (design a.val ic) b.val X)
    (hP' : PinvCallOk env (design a.val ic) 0 false)
    (hx : (Learner.ridge ic false rng (some 0)).train env a b = .ok x)
    (hy : (Learner.lstsq ic).train env a b = .ok y) :
    sqResid a.val b.val x.val ic = sqResid a.val b.val y.val ic := by
  have e1 := ridge_trained hty hr h1 h2 h3 le_rfl hP hx
  have e2 := lstsq_least hty hr h1 h2 h3 hls hP' hy
  refine le_antisymm ?_ (e2 _)
  have := e1 y.val
  unfold ridgeObjective at this
  linarith

/-- **C119** the training error of any ridge learner is at least that of least squares, and its coefficients are at most as
long as those of any model with the same training error. -/
theorem C119_between (env : Env) (a b x : TMat ℝ) (p : ℝ) (ic : Bool) (rng : List ℝ) (hty : a.ty = b.ty)
    (hr : a.nr = b.nr) (h1 : 0 < a.nr) (h2 : 0 < a.nc) (h3 : 0 < b.nc) (hp : 0 < p) (hP : PinvCallOk env a.val p ic)
    (hx : (Learner.ridge ic false rng (some p)).train env a b = .ok x) (Y : Mat ℝ)
    (hY : sqResid a.val b.val Y ic ≤ sqResid a.val b.val x.val ic) :
    sqPenalty a.val b.val x.val ≤ sqPenalty a.val b.val Y := by
  have e1 := ridge_trained hty hr h1 h2 h3 hp.le hP hx Y
  unfold ridgeObjective at e1
  by_contra hn
  push Not at hn
  have := mul_lt_mul_of_pos_left hn hp
  linarith

/-- **C119** the training error for any parameter lies between that of least squares and that of the zero model. -/
theorem C119_bounds (env : Env) (a b x y : TMat ℝ) (p : ℝ) (ic : Bool) (rng : List ℝ) (hty : a.ty = b.ty)
    (hr : a.nr = b.nr) (h1 : 0 < a.nr) (h2 : 0 < a.nc) (h3 : 0 < b.nc) (hp : 0 ≤ p) (hP : PinvCallOk env a.val p ic)
    (hls : ∃ X, env.npLstsq (design a.val ic) b.val = .ok X ∧ IsLstsq (design a.val ic) b.val X)
    (hP' : PinvCallOk env (design a.val ic) 0 false)
    (hx : (Learner.ridge ic false rng (some p)).train env a b = .ok x)
    (hy : (Learner.lstsq ic).train env a b = .ok y) :
    sqResid a.val b.val y.val ic ≤ sqResid a.val b.val x.val ic ∧
      sqResid a.val b.val x.val ic ≤ ∑ i ∈ range a.nr, ∑ j ∈ range b.nc, b.val.get i j ^ 2 := by
  refine ⟨lstsq_least hty hr h1 h2 h3 hls hP' hy x.val, ?_⟩
  have e := ridge_trained hty hr h1 h2 h3 hp hP hx (Mat.const (numCoef a.val ic) b.nc 0)
  have hz : ∀ i j, (Mat.const (numCoef a.val ic) b.nc (0 : ℝ)).get i j = 0 := by
    intro i j
    unfold Mat.const
    rw [Mat.of_get]
    split <;> rfl
  have e1 : ridgeObjective a.val b.val (Mat.const (numCoef a.val ic) b.nc 0) p ic =
      ∑ i ∈ range a.nr, ∑ j ∈ range b.nc, b.val.get i j ^ 2 := by
    unfold ridgeObjective sqResid sqPenalty predict
    simp [hz, TMat.nr, TMat.nc]
  have e2 : 0 ≤ p * sqPenalty a.val b.val x.val :=
    mul_nonneg hp (Finset.sum_nonneg fun _ _ => Finset.sum_nonneg fun _ _ => sq_nonneg _)
  rw [e1] at e
  unfold ridgeObjective at e
  linarith

/-- non-vacuity: on `2 x ≈ 6` the learners with the parameters 0 and 2 give `3` and `2`. -/
example : ∃ x y, PinvCallOk pinvEnv (one1 2) 0 false ∧ PinvCallOk pinvEnv (one1 2) 2 false ∧
    (Learner.ridge false false [] (some 0)).train pinvEnv ⟨.dense, one1 2⟩ ⟨.dense, one1 6⟩ = .ok x ∧
    (Learner.ridge false false [] (some 2)).train pinvEnv ⟨.dense, one1 2⟩ ⟨.dense, one1 6⟩ = .ok y ∧
    x.val = one1 3 ∧ y.val = one1 2 := by
  have hcall : ∀ lam : ℝ, 0 ≤ lam → PinvCallOk pinvEnv (one1 2) lam false := by
    intro lam hl
    rw [PinvCallOk, ridgeGram_one]
    exact ⟨_, rfl, one1_pinv (x := 2 * 2 + lam) (by positivity)⟩
  have key : ∀ lam : ℝ, 0 ≤ lam → ∃ x, (Learner.ridge false false [] (some lam)).train pinvEnv ⟨.dense, one1 2⟩
      ⟨.dense, one1 6⟩ = .ok x ∧ x.val = one1 ((4 + lam)⁻¹ * 12) := by
    intro lam hl
    have hok := ridgeRegression_ok pinvEnv ⟨.dense, one1 2⟩ ⟨.dense, one1 6⟩ lam false rfl rfl Nat.one_pos Nat.one_pos
      Nat.one_pos (one1 (4 + lam)⁻¹) (by
        show pinvEnv.npPinv (ridgeGram (one1 2) lam false) = _
        rw [ridgeGram_one]
        norm_num [pinvEnv, one1, Mat.of_get]) rfl rfl
    have hd : design (one1 2) false = one1 2 := design_false _
    have ht : (one1 (2 : ℝ)).transpose = one1 2 := one1_eq rfl rfl
    refine ⟨⟨.dense, one1 ((4 + lam)⁻¹ * 12)⟩, ?_, rfl⟩
    simp only [Learner.train]
    rw [hok, ok_bind, pure_eq_ok]
    simp only [hd, ht, one1_mul]
    congr 3
    ring
  obtain ⟨x, hx, ex⟩ := key 0 le_rfl
  obtain ⟨y, hy, ey⟩ := key 2 (by norm_num)
  exact ⟨x, y, hcall 0 le_rfl, hcall 2 (by norm_num), hx, hy, by rw [ex]; norm_num, by rw [ey]; norm_num⟩

end
end Dissect
