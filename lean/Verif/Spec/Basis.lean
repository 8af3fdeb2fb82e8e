import Verif.Spec.Composition

/-! # Spaces that differ by an orthonormal change of basis -/

namespace Dissect
open Finset
noncomputable section
variable {κ : Type} [DecidableEq κ]

/-- `Q` is an `n × n` matrix with orthonormal rows: a rotation or reflection. -/
structure IsOrtho (n : ℕ) (Q : Mat ℝ) : Prop where
  nr : Q.nr = n
  nc : Q.nc = n
  rows : ∀ i < n, ∀ j < n, dot n (Q.get i) (Q.get j) = if i = j then 1 else 0

/-- The coordinates of `x` (of length `n`) after the change of basis `Q`: the row vector `x Q`. -/
def turn (n : ℕ) (Q : Mat ℝ) (x : ℕ → ℝ) : ℕ → ℝ := fun j => ∑ i ∈ range n, x i * Q.get i j

/-- `s'` has the words of `s`, and every vector is given in the basis `Q`. -/
structure TurnedSpace (Q : Mat ℝ) (s s' : Space κ) : Prop where
  rows : s'.id2row = s.id2row
  width : s'.mat.nc = s.mat.nc
  vecs : ∀ w ∈ s.id2row, ∀ j < s.mat.nc, s'.vecOf w j = turn s.mat.nc Q (s.vecOf w) j

/-- The triples with the two constituents exchanged. -/
def swapData (data : List (Triple κ)) : List (Triple κ) := data.map (fun t => (t.2.1, t.1, t.2.2))

end
end Dissect
