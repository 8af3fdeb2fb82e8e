import Verif.Spec.Space
import Verif.Model.Composition

/-! # Specification: what composing two vectors means -/

namespace Dissect
open Finset
noncomputable section
variable {κ : Type} [DecidableEq κ]

/-- The triples whose two words are row labels of their spaces, in input order. -/
def knownTriples (s1 s2 : Space κ) (data : List (Triple κ)) : List (Triple κ) :=
  data.filter (fun t => decide (t.1 ∈ s1.id2row ∧ t.2.1 ∈ s2.id2row))

/-- The training triples whose words and phrase are row labels of their spaces, in input order. -/
def trainTriples (s1 s2 p : Space κ) (data : List (Triple κ)) : List (Triple κ) :=
  data.filter (fun t => decide (t.1 ∈ s1.id2row ∧ t.2.1 ∈ s2.id2row ∧ t.2.2 ∈ p.id2row))

/-- `x · y` of two vectors of length `n`. -/
def dot (n : ℕ) (x y : ℕ → ℝ) : ℝ := ∑ k ∈ range n, x k * y k

/-- `alpha*u + beta*v`. -/
def weightedVec (alpha beta : ℝ) (u v : ℕ → ℝ) : ℕ → ℝ := fun j => alpha * u j + beta * v j

/-- `(u·u)v + (lambda-1)(u·v)u`. -/
def dilationVec (n : ℕ) (lam : ℝ) (u v : ℕ → ℝ) : ℕ → ℝ :=
  fun j => dot n u u * v j + (lam - 1) * dot n u v * u j

/-- The component-wise product. -/
def productVec (u v : ℕ → ℝ) : ℕ → ℝ := fun j => u j * v j

/-- `A u + B v + c`, for matrices given by their entries. -/
def affineVec (n1 n2 : ℕ) (A B : ℕ → ℕ → ℝ) (c : ℕ → ℝ) (u v : ℕ → ℝ) : ℕ → ℝ :=
  fun j => dot n1 (A j) u + dot n2 (B j) v + c j

/-- The vector a model assigns to a pair of vectors of lengths `n1`, `n2`. The stored matrices of `FullAdditive` are
transposed, and with an intercept the last row of the second one is the intercept. -/
def CModel.vec (c : CModel) (n1 n2 : ℕ) (u v : ℕ → ℝ) : ℕ → ℝ :=
  match c with
  | .weighted a b => weightedVec a b u v
  | .dilation l => dilationVec n1 l u v
  | .multiplicative => productVec u v
  | .fullAdditive (some A) (some B) i _ =>
    affineVec n1 n2 (fun j k => A.val.get k j) (fun j k => B.val.get k j)
      (fun j => if i then B.val.get n2 j else 0) u v
  | .fullAdditive _ _ _ _ => fun _ => 0

/-- The model can compose vectors of lengths `n1`, `n2` to vectors of length `w`. -/
def CModel.Fits (c : CModel) (n1 n2 w : ℕ) : Prop :=
  0 < n1 ∧ 0 < n2 ∧ 0 < w ∧
  match c with
  | .fullAdditive (some A) (some B) i _ =>
    A.nr = n1 ∧ B.nr = (if i then n2 + 1 else n2) ∧ A.nc = w ∧ B.nc = w
  | .fullAdditive _ _ _ _ => False
  | _ => n1 = n2 ∧ w = n1

/-- The vector of the word `w` in the space `s`. -/
def Space.vecOf (s : Space κ) (w : κ) : ℕ → ℝ := s.mat.val.get (s.id2row.idxOf w)

/-- Total squared distance between composed vectors and phrase vectors over the samples `l`; `f u v` is the composed
vector, `n` the number of columns of the phrase space. -/
def trainError (s1 s2 p : Space κ) (l : List (Triple κ)) (f : (ℕ → ℝ) → (ℕ → ℝ) → ℕ → ℝ) : ℝ :=
  (l.map (fun t => ∑ j ∈ range p.mat.nc, (f (s1.vecOf t.1) (s2.vecOf t.2.1) j - p.vecOf t.2.2 j) ^ 2)).sum

/-- The vector `[u v]`, `u` of length `n`. -/
def joinVec (n : ℕ) (u v : ℕ → ℝ) : ℕ → ℝ := fun j => if j < n then u j else v (j - n)

/-- The prediction of the linear model with coefficient rows `X` for the input `x` of length `n`; with an intercept row
`n` of `X` is added. -/
def predictVec (n : ℕ) (X : ℕ → ℕ → ℝ) (intercept : Bool) (x : ℕ → ℝ) : ℕ → ℝ :=
  fun j => ∑ k ∈ range n, x k * X k j + if intercept then X n j else 0

/-- Row `k` is `[u v]` for the words of sample `k`. -/
def pairRows (s1 s2 : Space κ) (l : List (Triple κ)) : Mat ℝ :=
  Mat.of l.length (s1.mat.nc + s2.mat.nc) (fun k j =>
    match l[k]? with
    | some t => joinVec s1.mat.nc (s1.vecOf t.1) (s2.vecOf t.2.1) j
    | none => 0)

/-- Row `k` is the vector of the phrase of sample `k`. -/
def phraseRows (p : Space κ) (l : List (Triple κ)) : Mat ℝ :=
  Mat.of l.length p.mat.nc (fun k j =>
    match l[k]? with
    | some t => p.vecOf t.2.2 j
    | none => 0)

end
end Dissect
