import Verif.Spec.Composition
import Verif.Spec.Regression

/-! # Specification: regression problems given by a list of samples -/

namespace Dissect
open Finset
variable {α : Type}

/-- The squared Frobenius norm. -/
noncomputable def frobSq (X : Mat ℝ) : ℝ := ∑ i ∈ range X.nr, ∑ j ∈ range X.nc, X.get i j ^ 2

/-- What numpy documents about `lstsq`: the result is a least-squares solution, and of all these (there are several when
the matrix does not have full column rank) the one of minimal norm. -/
structure IsMinNormLstsq (A B X : Mat ℝ) : Prop where
  /-- a least-squares solution -/
  solves : IsLstsq A B X
  /-- the shortest one -/
  shortest : ∀ Y : Mat ℝ, Y.nr = X.nr → Y.nc = X.nc → sqResid A B Y false ≤ sqResid A B X false → frobSq X ≤ frobSq Y

/-- The matrix whose row `k` is `f` of the `k`-th sample. -/
noncomputable def rowsMat (n : ℕ) (f : α → ℕ → ℝ) (l : List α) : Mat ℝ :=
  Mat.of l.length n (fun k j => match l[k]? with
    | some t => f t j
    | none => 0)

end Dissect
