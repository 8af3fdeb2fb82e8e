import Verif.Model.Space

/-!
# Specification: what a consistent space is

These definitions mention only the observable attributes of a space.
-/

namespace Dissect
variable {κ : Type} [DecidableEq κ]

/-- The label list and the dictionary are inverse to each other: labels are distinct, exactly the labels are keys, and
the value stored under a label is a Python index of that label in the list. -/
structure Labels (l : List κ) (d : Dict κ ℤ) : Prop where
  nodup : l.Nodup
  keys : ∀ k, k ∈ l ↔ ∃ v, d.get? k = some v
  index : ∀ k v, d.get? k = some v → pyGet l v = .ok k

/-- A consistent space. -/
structure Space.WF (s : Space κ) : Prop where
  rows : Labels s.id2row s.row2id
  cols : Labels s.id2col s.col2id
  nrows : s.mat.nr = s.id2row.length
  ncols : s.id2col ≠ [] → s.mat.nc = s.id2col.length
  shape : s.elemShape.prod = s.mat.nc

/-- `w` is the `i`-th row label. -/
def Space.HasWord (s : Space κ) (i : ℕ) (w : κ) : Prop := s.id2row[i]? = some w

end Dissect
