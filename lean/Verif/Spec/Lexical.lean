import Verif.Spec.Composition

/-! # Specification: lexical functions -/

namespace Dissect
open Finset
noncomputable section
variable {κ : Type} [DecidableEq κ]

/-- The matrix stored row-major in the vector `F` (with rows of length `n`, or `n+1` when there is an intercept) times
the vector `v` of length `n`; the last matrix column is the intercept. -/
def lexVec (n : ℕ) (intercept : Bool) (F v : ℕ → ℝ) : ℕ → ℝ := fun j =>
  let w := if intercept then n + 1 else n
  ∑ i ∈ range n, F (j * w + i) * v i + if intercept then F (j * w + n) else 0

/-- The samples of the function word `f` that can be used for training, in input order. -/
def lexSamples (arg phrase : Space κ) (data : List (Triple κ)) (f : κ) : List (Triple κ) :=
  data.filter (fun t => decide (t.1 = f ∧ t.2.1 ∈ arg.id2row ∧ t.2.2 ∈ phrase.id2row))

/-- Row `k` is the vector of the argument word of sample `k`. -/
def argRows (s : Space κ) (l : List (Triple κ)) : Mat ℝ :=
  Mat.of l.length s.mat.nc (fun k j =>
    match l[k]? with
    | some t => s.vecOf t.2.1 j
    | none => 0)

/-- The matrix class used for the regression problems: the class of the argument space, unless the phrase space is of
another class and has longer vectors. -/
def lexTy (arg phrase : Space κ) : MTy := if arg.mat.nc < phrase.mat.nc then phrase.mat.ty else arg.mat.ty

/-- The total squared distance between the values of `f` at the argument vectors and the phrase vectors of the samples `l`. -/
def lexError (arg phrase : Space κ) (l : List (Triple κ)) (f : (ℕ → ℝ) → ℕ → ℝ) : ℝ :=
  (l.map (fun t => ∑ j ∈ range phrase.mat.nc, (f (arg.vecOf t.2.1) j - phrase.vecOf t.2.2 j) ^ 2)).sum

end
end Dissect
