import Verif.Model.Mat
import Mathlib.Data.Real.Basic

/-! # Specification of a singular value decomposition (textbook) -/

namespace Dissect
open Finset

/-- `(u, s, vt)` are singular triples of `A`: orthonormal columns of `u`, orthonormal rows of `vt`, decreasing
non-negative `s`, and `A vₖ = sₖ uₖ`. There may be fewer of them than a complete decomposition needs (this is what a
truncated sparse SVD promises). -/
structure SingularTriples (A u : Mat ℝ) (s : List ℝ) (vt : Mat ℝ) : Prop where
  uRows : u.nr = A.nr
  uCols : u.nc = s.length
  vRows : vt.nr = s.length
  vCols : vt.nc = A.nc
  uOrth : ∀ k l, k < s.length → l < s.length → ∑ i ∈ range A.nr, u.get i k * u.get i l = if k = l then 1 else 0
  vOrth : ∀ k l, k < s.length → l < s.length → ∑ j ∈ range A.nc, vt.get k j * vt.get l j = if k = l then 1 else 0
  nonneg : ∀ x ∈ s, 0 ≤ x
  sorted : s.Pairwise (fun x y => y ≤ x)
  triple : ∀ i k, i < A.nr → k < s.length → ∑ j ∈ range A.nc, A.get i j * vt.get k j = s.getD k 0 * u.get i k

/-- `(u, s, vt)` is a (thin) singular value decomposition of `A`: `A = u · diag(s) · vt`. -/
structure IsSvd (A u : Mat ℝ) (s : List ℝ) (vt : Mat ℝ) : Prop where
  uRows : u.nr = A.nr
  uCols : u.nc = s.length
  vRows : vt.nr = s.length
  vCols : vt.nc = A.nc
  uOrth : ∀ k l, k < s.length → l < s.length → ∑ i ∈ range A.nr, u.get i k * u.get i l = if k = l then 1 else 0
  vOrth : ∀ k l, k < s.length → l < s.length → ∑ j ∈ range A.nc, vt.get k j * vt.get l j = if k = l then 1 else 0
  nonneg : ∀ x ∈ s, 0 ≤ x
  sorted : s.Pairwise (fun x y => y ≤ x)
  factor : ∀ i j, i < A.nr → j < A.nc → A.get i j = ∑ l ∈ range s.length, u.get i l * s.getD l 0 * vt.get l j

/-- `(u, s, vt)` are the largest `k` singular triples of `A` (all those with a non-zero singular value, if there are
fewer than `k`): the promise of a truncated SVD routine. -/
def TopTriples (A : Mat ℝ) (k : ℕ) (u : Mat ℝ) (s : List ℝ) (vt : Mat ℝ) : Prop :=
  u.nr = A.nr ∧ u.nc = s.length ∧ vt.nr = s.length ∧ vt.nc = A.nc ∧
  ∃ U S VT, IsSvd A U S VT ∧ s.length ≤ S.length ∧
    (∀ l, l < s.length → s.getD l 0 = S.getD l 0 ∧ (∀ i, i < A.nr → u.get i l = U.get i l) ∧
      ∀ j, j < A.nc → vt.get l j = VT.get l j) ∧
    (s.length < k → ∀ l, s.length ≤ l → l < S.length → S.getD l 0 = 0)

/-- The matrix makes some vector of length 1 longer than `t` (its spectral norm exceeds `t`). -/
def Mat.Stretches (A : Mat ℝ) (t : ℝ) : Prop :=
  ∃ x : ℕ → ℝ, ∑ j ∈ range A.nc, x j ^ 2 = 1 ∧ t ^ 2 < ∑ i ∈ range A.nr, (∑ j ∈ range A.nc, A.get i j * x j) ^ 2

end Dissect
