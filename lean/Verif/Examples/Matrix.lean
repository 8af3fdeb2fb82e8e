import Verif.Props.Matrix
import Verif.Props.Reshape
import Verif.Props.Index
import Verif.Props.Stack

/-!
# Concrete instances of the matrix theorems

Every `example` applies a theorem of `Props/` to concrete data, so that its hypotheses are seen to be met.
-/

namespace Dissect
noncomputable section
namespace Examples

/-- `[[0, 1, 2], [3, 4, 5]]` -/
def m23 (ty : MTy) : TMat ℚ := ⟨ty, Mat.of 2 3 (fun i j => 3 * i + j)⟩

/-- `[[0, 1, 2], [-1, 0, 1]]` -/
def n23 (ty : MTy) : TMat ℚ := ⟨ty, Mat.of 2 3 (fun i j => (j : ℚ) - i)⟩

/-- `[[0, 1], [1, 2], [2, 3]]` -/
def m32 (ty : MTy) : TMat ℚ := ⟨ty, Mat.of 3 2 (fun i j => (i : ℚ) + j)⟩

/-- The sparse matrix `[[0, 5, 0], [0, 0, 0], [7, 0, -2]]`. -/
def csr33 : Csr ℝ := ⟨3, 3, [5, 7, -2], [1, 0, 2], [0, 1, 1, 3]⟩

theorem csr33_wf : csr33.WF where
  len_ptr := rfl
  ptr_zero := rfl
  mono := by
    show ∀ i, i < 3 → [0, 1, 1, 3].getD i 0 ≤ [0, 1, 1, 3].getD (i + 1) 0
    decide
  ptr_last := rfl
  len_idx := rfl
  idx_lt := by
    show ∀ j ∈ [1, 0, 2], j < 3
    decide
  nodup := by
    intro i hi
    have hi : i < 3 := hi
    obtain rfl | rfl | rfl : i = 0 ∨ i = 1 ∨ i = 2 := by omega
    · show [1].Nodup
      decide
    · show ([] : List ℕ).Nodup
      decide
    · show [0, 2].Nodup
      decide

/-- C06 -/
example : ∃ u, (m23 .dense).toType .sparse = .ok u ∧ u.ty = .sparse ∧ SameValues u (m23 .dense) := by
  obtain ⟨u, hu⟩ := C06_conversion_total .sparse (m23 .dense) (by decide) (by decide)
  exact ⟨u, hu, C06_conversion_preserves_values _ _ _ hu⟩

/-- C06 -/
example : ∃ l', TMat.resolveTypeConflict [m23 .dense, n23 .sparse] (some .dense) = .ok l' ∧
    List.Forall₂ SameValues l' [m23 .dense, n23 .sparse] ∧ ∀ s ∈ l', ∀ t ∈ l', s.ty = t.ty :=
  ⟨_, rfl, C06_resolve_type_conflict _ _ (some .dense) rfl⟩

/-- C06 -/
example : TMat.resolveTypeConflict [m23 .dense, n23 .dense] (some .sparse) = .ok [m23 .dense, n23 .dense] :=
  C06_no_conflict_no_change _ _ (by simp [m23, n23])

/-- C06 -/
example : ∃ s' t', (m23 .dense).toCompatible (n23 .sparse) = .ok (s', t') ∧ t'.ty = .dense ∧ SameValues t' (n23 .sparse) := by
  have h : (m23 .dense).toCompatible (n23 .sparse) = .ok (m23 .dense, n23 .dense) := rfl
  exact ⟨_, _, h, (C06_to_compatible _ _ _ _ h).2⟩

/-- C30 -/
example : (∃ r, csr33.getRow 2 = .ok r ∧ r.nr = 1 ∧ ∀ j, j < 3 → r.toMat.get 0 j = csr33.toMat.get 2 j) ∧
    csr33.getRow 3 = .error .indexError := by
  obtain ⟨r, h1, _, h3, _, h5⟩ := C30_sparse_row_access csr33 csr33_wf 2 (by decide)
  exact ⟨⟨r, h1, h3, h5⟩, C30_sparse_row_out_of_range csr33 csr33_wf 3 (by decide)⟩

/-- C31 -/
example : TMat.getNonNegative ⟨.dense, csr33.toMat⟩ = .ok ⟨.dense, csr33.getNonNegative.toMat⟩ ∧
    (TMat.toNonNegative ⟨.dense, csr33.toMat⟩).val = csr33.toNonNegative.toMat ∧
    (TMat.toOnes ⟨.dense, csr33.toMat⟩).val = csr33.toOnes.toMat ∧
    TMat.removeSmallValues ⟨.dense, csr33.toMat⟩ 6 = .ok ⟨.dense, (csr33.removeSmallValues 6).toMat⟩ ∧
    csr33.assertPositive = TMat.assertPositive ⟨.dense, csr33.toMat⟩ ∧
    (TMat.plog ⟨.dense, csr33.toMat⟩).val = csr33.plog.toMat ∧
    csr33.norm = TMat.norm ⟨.dense, csr33.toMat⟩ ∧
    (TMat.plog ⟨.sparse, csr33.toMat⟩).val = csr33.plog.toMat :=
  ⟨(C31_get_non_negative csr33 csr33_wf (by decide) (by decide)).1, (C31_to_non_negative csr33 csr33_wf).1,
    (C31_to_ones csr33 csr33_wf).1, (C31_remove_small_values csr33 csr33_wf (by decide) (by decide) 6).1,
    C31_assert_positive csr33 csr33_wf, (C31_plog csr33 csr33_wf).1, C31_norm csr33 csr33_wf, C31_sparse_branch csr33 csr33_wf⟩

/-- C34 -/
example : csr33.isMostlyPositive = true ∧ MostlyPositive csr33.toMat := by
  have h : csr33.isMostlyPositive = true := by
    simp [Csr.isMostlyPositive, csr33]
  exact ⟨h, (C34_sparse_is_mostly_positive_partial csr33 csr33_wf (by
    intro x hx
    have hx' : x ∈ ([5, 7, -2] : List ℝ) := hx
    simp at hx'
    rcases hx' with rfl | rfl | rfl <;> norm_num)).1 h⟩

/-- C35: two matrices closer than the tolerance. -/
example : TMat.allClose (⟨.dense, Mat.of 1 1 (fun _ _ => (1 : ℝ))⟩ : TMat ℝ) ⟨.dense, Mat.of 1 1 (fun _ _ => 1 + 1 / 1000000000)⟩ = true := by
  apply C35_sparse_implies_dense_partial
  rw [C35_sparse_symmetric_partial (Mat.of 1 1 (fun _ _ => (1 : ℝ))) (Mat.of 1 1 (fun _ _ => 1 + 1 / 1000000000)) rfl rfl]
  simp only [TMat.allClose, Mat.of_get]
  simp
  intro i _ j _
  split <;> norm_num

/-- C36 -/
example : (m23 .dense).add (n23 .sparse) = .error .typeError := (C36_mixed_types _ _ (by decide)).1

/-- C36 -/
example : Yields ((m23 .sparse).add (n23 .sparse)) .sparse 2 3
    (fun i j => (m23 .sparse).val.get i j + (n23 .sparse).val.get i j) :=
  (C36_add_sub (m23 .sparse) (n23 .sparse) rfl rfl rfl (by decide) (by decide)).1

/-- C36 -/
example : (m23 .sparse).add (m32 .sparse) = .error .valueError ∧ (m23 .dense).sub (m32 .dense) = .error .valueError :=
  ⟨(C36_sparse_add_shape _ _ rfl rfl (by decide)).1, (C36_dense_add_shape _ _ rfl rfl (by decide)).2⟩

/-- C36 -/
example : Yields ((m23 .sparse).mul (m32 .sparse)) .sparse 2 2
    (fun i j => ∑ k ∈ Finset.range 3, (m23 .sparse).val.get i k * (m32 .sparse).val.get k j) ∧
    (m23 .sparse).mul (n23 .sparse) = .error .valueError :=
  ⟨(C36_mul (m23 .sparse) (m32 .sparse) rfl).1 rfl (by decide) (by decide),
    (C36_mul (m23 .sparse) (n23 .sparse) rfl).2 (by decide)⟩

/-- C36 -/
example : Yields ((m23 .dense).multiply (n23 .dense)) .dense 2 3
    (fun i j => (m23 .dense).val.get i j * (n23 .dense).val.get i j) ∧
    (m23 .dense).multiply (m32 .dense) = .error .valueError :=
  ⟨(C36_multiply (m23 .dense) (n23 .dense) rfl).1 rfl rfl (by decide) (by decide),
    (C36_multiply (m23 .dense) (m32 .dense) rfl).2 (by decide)⟩

/-- C36 -/
example : Yields ((m23 .dense).vstack (n23 .dense)) .dense 4 3
      (fun i j => if i < 2 then (m23 .dense).val.get i j else (n23 .dense).val.get (i - 2) j) ∧
    (m23 .dense).vstack (m32 .dense) = .error .valueError ∧ (m23 .dense).hstack (m32 .dense) = .error .valueError :=
  ⟨(C36_stack (m23 .dense) (n23 .dense) rfl).1 rfl (by decide) (by decide),
    (C36_stack (m23 .dense) (m32 .dense) rfl).2.1 (by decide), (C36_stack (m23 .dense) (m32 .dense) rfl).2.2.2 (by decide)⟩

/-- C36 -/
example : Yields ((m23 .dense).divScalar 2) .dense 2 3 (fun i j => (m23 .dense).val.get i j / 2) :=
  (C36_scalar (m23 .dense) 2 (by decide) (by decide)).2.1 (by norm_num)

/-- C37 -/
example : Yields ((m23 .dense).scaleRows ⟨[2, 1], [10, 100]⟩) .dense 2 3
    (fun i j => ([10, 100] : List ℚ).getD i 0 * (m23 .dense).val.get i j) :=
  C37_scale_rows (m23 .dense) ⟨[2, 1], [10, 100]⟩ (by decide) (by decide) (.inl rfl) rfl

/-- C37 -/
example : Yields ((m23 .sparse).scaleCols ⟨[1, 3], [1, 10, 100]⟩) .sparse 2 3
    (fun i j => (m23 .sparse).val.get i j * ([1, 10, 100] : List ℚ).getD j 0) :=
  C37_scale_columns (m23 .sparse) ⟨[1, 3], [1, 10, 100]⟩ (by decide) (by decide) (.inl rfl) rfl

/-- C37 -/
example : (m23 .sparse).scaleRows ⟨[1, 3], [1, 10, 100]⟩ = .error .valueError :=
  (C37_scale_wrong_length (m23 .sparse) ⟨[1, 3], [1, 10, 100]⟩ rfl).1 (by decide)

/-- C37 -/
example : Yields ((m23 .dense).padd 1 7) .dense 2 4 (fun i j => if j < 3 then (m23 .dense).val.get i j else 7) ∧
    (m23 .dense).padd (-1) 7 = .error .valueError :=
  ⟨(C37_padd_matrix (m23 .dense) 7 (by decide) (by decide)).2.1,
    (C37_padd_matrix (m23 .dense) 7 (by decide) (by decide)).2.2 (-1) (by decide) (by decide)⟩

end Examples
end
end Dissect
