import Verif.Model.Mat
import Mathlib.Data.Real.Basic

/-! # Specification of regression problems and of the pseudo-inverse (textbook) -/

namespace Dissect
open Finset

/-- The four Penrose conditions: `P` is the pseudo-inverse of `M`. -/
structure IsPinv (M P : Mat ℝ) : Prop where
  nr : P.nr = M.nc
  nc : P.nc = M.nr
  one : (M.mul P).mul M = M
  two : (P.mul M).mul P = P
  three : (M.mul P).transpose = M.mul P
  four : (P.mul M).transpose = P.mul M

/-- Prediction of the linear model `X` for row `i` of `A`, output `j`; the last row of `X` is the intercept. -/
noncomputable def predict (A X : Mat ℝ) (intercept : Bool) (i j : ℕ) : ℝ :=
  ∑ k ∈ range A.nc, A.get i k * X.get k j + if intercept then X.get A.nc j else 0

/-- `‖A X - B‖²` (Frobenius), with intercept when asked for. -/
noncomputable def sqResid (A B X : Mat ℝ) (intercept : Bool) : ℝ :=
  ∑ i ∈ range A.nr, ∑ j ∈ range B.nc, (predict A X intercept i j - B.get i j) ^ 2

/-- `‖X‖²` without the intercept row. -/
noncomputable def sqPenalty (A B X : Mat ℝ) : ℝ := ∑ k ∈ range A.nc, ∑ j ∈ range B.nc, X.get k j ^ 2

/-- The ridge objective. -/
noncomputable def ridgeObjective (A B X : Mat ℝ) (lam : ℝ) (intercept : Bool) : ℝ :=
  sqResid A B X intercept + lam * sqPenalty A B X

/-- Number of coefficients per output. -/
def numCoef (A : Mat ℝ) (intercept : Bool) : ℕ := if intercept then A.nc + 1 else A.nc

/-- `A`, with a last column of ones when there is an intercept. -/
noncomputable def design (A : Mat ℝ) (intercept : Bool) : Mat ℝ :=
  Mat.of A.nr (numCoef A intercept) (fun i j => if j < A.nc then A.get i j else 1)

/-- The regularised Gram matrix `AᵀA + λ·diag(1,…,1,0)` (the `0` for the intercept). -/
noncomputable def ridgeGram (A : Mat ℝ) (lam : ℝ) (intercept : Bool) : Mat ℝ :=
  Mat.of (numCoef A intercept) (numCoef A intercept) (fun i j =>
    ∑ k ∈ range A.nr, (design A intercept).get k i * (design A intercept).get k j +
      if i = j ∧ i < A.nc then lam else 0)

/-- The documented default of the values tried by generalized cross validation: `linspace(0, 5, 11)`
(`utils/regression_learner.py:57-59`), eleven values from 0 to 5 in steps of one half. -/
noncomputable def lambdaGrid : List ℝ := [0, 1 / 2, 1, 3 / 2, 2, 5 / 2, 3, 7 / 2, 4, 9 / 2, 5]

/-- `X` solves the least-squares problem `A X ≈ B`. -/
structure IsLstsq (A B X : Mat ℝ) : Prop where
  nr : X.nr = A.nc
  nc : X.nc = B.nc
  min : ∀ Y : Mat ℝ, sqResid A B X false ≤ sqResid A B Y false

end Dissect
