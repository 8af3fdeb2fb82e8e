import Verif.Props.Regression
import Verif.Lemmas.TrainOrder

/-! # C151: when numpy cannot compute the pseudo-inverse -/

namespace Dissect
noncomputable section
open Finset

/-- Entry `(k, j)` of `Wᵀ B`, where `W` is `A` with a column of ones if there is an intercept. -/
def correlationEntry (A B : Mat ℝ) (ic : Bool) (k j : ℕ) : ℝ := ∑ i ∈ range A.nr, (design A ic).get i k * B.get i j

/-- **C151** When the pseudo-inverse does not converge (numpy raises `LinAlgError`), `ridge_regression` does not fail: for
all matrices, whatever the parameter, it returns `Wᵀ B`, which does not depend on the parameter; the error it reports is
the residual of that matrix and the trace is the sum of the squares of `W`. -/
theorem C151_no_convergence (env : Env) (a b : TMat ℝ) (lam : ℝ) (ic : Bool) (hty : a.ty = b.ty) (hr : a.nr = b.nr)
    (h1 : 0 < a.nr) (h2 : 0 < a.nc) (h3 : 0 < b.nc)
    (hP : env.npPinv (ridgeGram a.val lam ic) = .error .linAlgError) :
    ∃ x tr err, ridgeRegression env a b lam ic = .ok (x, tr, err) ∧ x.ty = a.ty ∧ x.nr = numCoef a.val ic ∧ x.nc = b.nc ∧
      (∀ k j, k < x.nr → j < x.nc → x.val.get k j = correlationEntry a.val b.val ic k j) ∧
      err = Real.sqrt (sqResid a.val b.val x.val ic) ∧
      tr = ∑ k ∈ range (numCoef a.val ic), ∑ i ∈ range a.nr, (design a.val ic).get i k ^ 2 := by
  have hd : 0 < numCoef a.val ic := by unfold numCoef; split <;> omega
  have hI : pinvOrIdentity env ⟨a.ty, ridgeGram a.val lam ic⟩ (numCoef a.val ic) = .ok ⟨a.ty, Mat.identity (numCoef a.val ic)⟩ := by
    unfold pinvOrIdentity pinv
    simp only
    rw [hP]
    exact TMat.wrap_ok_pos (A := Mat.identity _) hd hd
  have hmul : (Mat.identity (K := ℝ) (numCoef a.val ic)).mul (design a.val ic).transpose = (design a.val ic).transpose := by
    refine Mat.ext' rfl rfl fun i j hi hj => ?_
    have hi' : i < numCoef a.val ic := hi
    rw [Mat.mul_get]
    show ∑ k ∈ range (numCoef a.val ic), _ = _
    rw [Finset.sum_eq_single i]
    · rw [Mat.identity, Mat.of_get_lt hi' hi', if_pos rfl, one_mul]
    · intro k hk hne
      rw [Mat.identity, Mat.of_get_lt hi' (Finset.mem_range.1 hk), if_neg (Ne.symm hne), zero_mul]
    · intro h; exact absurd (Finset.mem_range.2 hi') h
  have hmain := ridgeRegression_tmp env a b lam ic hty hr h1 h2 h3 (Mat.identity (numCoef a.val ic)) hI rfl rfl
  rw [hmul] at hmain
  refine ⟨_, _, _, hmain, rfl, rfl, rfl, ?_, ?_, ?_⟩
  · intro k j _ _
    show ((design a.val ic).transpose.mul b.val).get k j = _
    rw [Mat.mul_get]
    rfl
  · unfold TMat.norm sqResid
    congr 1
    refine Finset.sum_congr rfl fun i hi => Finset.sum_congr rfl fun j _ => ?_
    have hi' : i < a.nr := Finset.mem_range.1 hi
    rw [predict_eq _ _ _ _ _ hi']
    show (((design a.val ic).mul _).sub b.val).get i j ^ 2 = _
    rw [Mat.sub_get (A := (design a.val ic).mul ((design a.val ic).transpose.mul b.val)) hr rfl]
    rfl
  · unfold Mat.total
    refine Finset.sum_congr rfl fun k _ => Finset.sum_congr rfl fun i _ => ?_
    rw [Mat.had_get]
    simp only [Mat.transpose_get]
    ring

/-- **C151** Every other exception of numpy is passed on. -/
theorem C151_other_exceptions (env : Env) (a b : TMat ℝ) (lam : ℝ) (ic : Bool) (hty : a.ty = b.ty) (hr : a.nr = b.nr)
    (h1 : 0 < a.nr) (h2 : 0 < a.nc) {e : PyErr} (he : e ≠ .linAlgError)
    (hP : env.npPinv (ridgeGram a.val lam ic) = .error e) : ridgeRegression env a b lam ic = .error e := by
  have hp : pinvOrIdentity env ⟨a.ty, ridgeGram a.val lam ic⟩ (numCoef a.val ic) = .error e := by
    unfold pinvOrIdentity pinv
    simp only
    rw [hP]
    cases e <;> first | rfl | exact absurd rfl he
  rw [ridgeRegression_eq env a b lam ic hty hr h1 h2, hp]
  rfl

/-- **C151** So a ridge learner, with a given parameter or with cross validation, learns `Wᵀ B` when no pseudo-inverse
converges. -/
theorem C151_learner (env : Env) (a b : TMat ℝ) (ic : Bool) (hty : a.ty = b.ty) (hr : a.nr = b.nr)
    (h1 : 0 < a.nr) (h2 : 0 < a.nc) (h3 : 0 < b.nc) (rng : List ℝ)
    (hP : ∀ lam, env.npPinv (ridgeGram a.val lam ic) = .error .linAlgError) {l : Learner}
    (hl : (∃ p, l = .ridge ic false rng (some p)) ∨ ∃ p, l = .ridge ic true rng p) :
    ∃ x, l.train env a b = .ok x ∧ x.ty = a.ty ∧ x.nr = numCoef a.val ic ∧ x.nc = b.nc ∧
      ∀ k j, k < x.nr → j < x.nc → x.val.get k j = correlationEntry a.val b.val ic k j := by
  rcases hl with ⟨p, rfl⟩ | ⟨p, rfl⟩
  · obtain ⟨x, tr, err, e, k1, k2, k3, k4, _⟩ := C151_no_convergence env a b p ic hty hr h1 h2 h3 (hP p)
    exact ⟨x, by simp only [Learner.train]; rw [e]; rfl, k1, k2, k3, k4⟩
  · obtain ⟨x, hx⟩ := C53_succeeds env a b ic rng p (fun q _ => by
      obtain ⟨x, tr, err, e, _⟩ := C151_no_convergence env a b q ic hty hr h1 h2 h3 (hP q)
      exact ⟨_, e⟩)
    obtain ⟨q, tr, err, -, e⟩ := C53_first_minimiser env a b ic rng p x hx
    obtain ⟨x', tr', err', e', k1, k2, k3, k4, _⟩ := C151_no_convergence env a b q ic hty hr h1 h2 h3 (hP q)
    rw [e'] at e
    have := ok_inj e
    simp only [Prod.mk.injEq] at this
    obtain ⟨rfl, -⟩ := this
    exact ⟨x', hx, k1, k2, k3, k4⟩

/-- **C151** Least squares on sparse matrices goes through the pseudo-inverse as well, and gives `Wᵀ B`; on dense matrices
numpy's own routine is used, and each of its exceptions is passed on. -/
theorem C151_least_squares (env : Env) (a b : TMat ℝ) (ic : Bool) (hty : a.ty = b.ty) (hr : a.nr = b.nr)
    (h1 : 0 < a.nr) (h2 : 0 < a.nc) (h3 : 0 < b.nc) :
    (a.ty = .sparse → env.npPinv (ridgeGram (design a.val ic) 0 false) = .error .linAlgError →
      ∃ x, lstsqRegression env a b ic = .ok x ∧ x.ty = .sparse ∧ x.nr = numCoef a.val ic ∧ x.nc = b.nc ∧
        ∀ k j, k < x.nr → j < x.nc → x.val.get k j = correlationEntry a.val b.val ic k j) ∧
    (a.ty = .dense → ∀ e, env.npLstsq (design a.val ic) b.val = .error e → lstsqRegression env a b ic = .error e) := by
  have hd : 0 < numCoef a.val ic := by unfold numCoef; split <;> omega
  constructor
  · intro ha hP
    obtain ⟨x, tr, err, e, k1, k2, k3, k4, _⟩ := C151_no_convergence env ⟨.sparse, design a.val ic⟩ b 0 false (ha.symm.trans hty) hr
      h1 hd h3 hP
    refine ⟨x, ?_, k1, k2, k3, fun k j hk hj => ?_⟩
    · unfold lstsqRegression TMat.assertSameType TMat.assertSameRows
      rw [if_pos hty, ok_bind, if_pos hr, ok_bind, addOnes_ok a ic h1, ok_bind, ha]
      simp only
      rw [e]
      rfl
    · rw [k4 k j hk hj]
      unfold correlationEntry
      rw [design_false]
      rfl
  · intro ha e he
    unfold lstsqRegression TMat.assertSameType TMat.assertSameRows
    rw [if_pos hty, ok_bind, if_pos hr, ok_bind, addOnes_ok a ic h1, ok_bind, ha]
    simp only
    rw [he]
    rfl

/-! ### A back end whose pseudo-inverse never converges -/

/-- A back end none of whose routines converges. -/
def stuckEnv : Env where
  npSvd := fun _ => .error .linAlgError
  sparseSvd := fun _ _ => .error .linAlgError
  npPinv := fun _ => .error .linAlgError
  npLstsq := fun _ _ => .error .linAlgError

/-- With `A = (2)`, `B = (6)` the result is `(12)`, although `X = (3)` would be exact: the returned matrix is not a
minimiser, and nothing but a printed warning tells. -/
theorem C151_not_a_minimiser : ∃ x tr err, ridgeRegression stuckEnv ⟨.dense, one1 2⟩ ⟨.dense, one1 6⟩ 0 false = .ok (x, tr, err) ∧
    x.val.get 0 0 = 12 ∧ sqResid (one1 2) (one1 6) (one1 3) false < sqResid (one1 2) (one1 6) x.val false := by
  obtain ⟨x, tr, err, e, k1, k2, k3, k4, _⟩ := C151_no_convergence stuckEnv ⟨.dense, one1 2⟩ ⟨.dense, one1 6⟩ 0 false rfl rfl
    Nat.one_pos Nat.one_pos Nat.one_pos rfl
  have hx : x.val.get 0 0 = 12 := by
    rw [k4 0 0 (by rw [k2]; exact Nat.one_pos) (by rw [k3]; exact Nat.one_pos)]
    unfold correlationEntry
    rw [design_false]
    simp [one1, Mat.of_get]
    norm_num
  refine ⟨x, tr, err, e, hx, ?_⟩
  unfold sqResid predict
  simp [one1, Mat.of_get, hx]
  norm_num

/-- The hypotheses of `C151_learner`, `C151_least_squares` and `C151_other_exceptions` are met. -/
example : (∃ x, (Learner.ridge true true [0, 1, 2] none).train stuckEnv ⟨.sparse, one1 2⟩ ⟨.sparse, one1 6⟩ = .ok x ∧ x.nr = 2) ∧
    (∃ x, lstsqRegression stuckEnv ⟨.sparse, one1 2⟩ ⟨.sparse, one1 6⟩ true = .ok x ∧ x.nr = 2) ∧
    lstsqRegression stuckEnv ⟨.dense, one1 2⟩ ⟨.dense, one1 6⟩ true = .error .linAlgError ∧
    ridgeRegression { stuckEnv with npPinv := fun _ => .error .valueError } ⟨.dense, one1 2⟩ ⟨.dense, one1 6⟩ 1 true
      = .error .valueError := by
  refine ⟨?_, ?_, ?_, ?_⟩
  · obtain ⟨x, h1, _, h2, _⟩ := C151_learner stuckEnv ⟨.sparse, one1 2⟩ ⟨.sparse, one1 6⟩ true rfl rfl Nat.one_pos Nat.one_pos
      Nat.one_pos [0, 1, 2] (fun _ => rfl) (Or.inr ⟨none, rfl⟩)
    exact ⟨x, h1, h2⟩
  · obtain ⟨x, h1, _, h2, _⟩ := (C151_least_squares stuckEnv ⟨.sparse, one1 2⟩ ⟨.sparse, one1 6⟩ true rfl rfl Nat.one_pos
      Nat.one_pos Nat.one_pos).1 rfl rfl
    exact ⟨x, h1, h2⟩
  · exact (C151_least_squares stuckEnv ⟨.dense, one1 2⟩ ⟨.dense, one1 6⟩ true rfl rfl Nat.one_pos
      Nat.one_pos Nat.one_pos).2 rfl _ rfl
  · exact C151_other_exceptions _ ⟨.dense, one1 2⟩ ⟨.dense, one1 6⟩ 1 true rfl rfl Nat.one_pos Nat.one_pos (by decide) rfl

end
end Dissect
