import Verif.Examples.Space
import Verif.Props.Association

/-! # Concrete cases for C141 -/

namespace Dissect.Examples
noncomputable section

theorem animals_rows (ty : MTy) : 0 < (animals ty).mat.nr := by simp [animals, exMat, TMat.nr]
theorem animals_cols (ty : MTy) : 0 < (animals ty).mat.nc := by simp [animals, exMat, TMat.nc]

theorem animals_expected (ty : MTy) : expectedCount (animals ty).mat.val 1 0 = 9 / 15 := by
  simp [expectedCount, Mat.rowSum, Mat.colSum, Mat.total, animals, exMat, Mat.of_get, Finset.sum_range_succ]
  norm_num

theorem animals_count (ty : MTy) : (animals ty).mat.val.get 1 0 = 1 := by simp [animals, exMat, Mat.of_get]

theorem animals_filled (ty : MTy) : ∃ i j, i < (animals ty).mat.nr ∧ j < (animals ty).mat.nc ∧ (animals ty).mat.val.get i j ≠ 0 :=
  ⟨1, 0, by simp [animals, exMat, TMat.nr], by simp [animals, exMat, TMat.nc], by rw [animals_count]; exact one_ne_zero⟩

/-- In `[[0, 2, 4], [1, 3, 5]]` the count 1 in the second row is more than the expected 9/15: its weight is positive. -/
example (ty : MTy) : ∃ r, ScalingT.ppmi.apply (animals ty).mat none = .ok r ∧ 0 < r.val.get 1 0 := by
  obtain ⟨r, h, _⟩ := C16_ppmi (animals ty).mat (animals_rows ty) (animals_cols ty) (animals_nonneg _)
  exact ⟨r, h, (C141_positive (animals_rows ty) (animals_cols ty) (animals_nonneg _) (.inl rfl) h
    (by simp [animals, exMat, TMat.nr]) (by simp [animals, exMat, TMat.nc])).1 (by rw [animals_expected, animals_count]; norm_num)⟩

/-- Words and contexts are not independent there. -/
example (ty : MTy) : ∃ r, ScalingT.plmi.apply (animals ty).mat none = .ok r ∧
    ¬ (∀ i j, i < (animals ty).mat.nr → j < (animals ty).mat.nc → r.val.get i j = 0) ∧ 0 ≤ mutualInformation (animals ty).mat.val := by
  obtain ⟨r, h, _⟩ := C16_plmi (animals ty).mat (animals_rows ty) (animals_cols ty) (animals_nonneg _)
  refine ⟨r, h, ?_, (C141_mutual_information (animals_rows ty) (animals_cols ty) (animals_nonneg _) (animals_filled ty) h).1⟩
  rw [(C141_independent (t := .plmi) (animals_rows ty) (animals_cols ty) (animals_nonneg _) (animals_filled ty) h).1 (.inr rfl)]
  intro hI
  have := hI 1 0 (by simp [animals, exMat]) (by simp [animals, exMat])
  rw [animals_expected, animals_count] at this
  norm_num at this

example (ty : MTy) : ∃ r, ScalingT.epmi.apply (animals ty).mat none = .ok r ∧ r.val.get 1 0 * (9 / 15) = 1 ∧
    ∑ i ∈ Finset.range 2, ∑ j ∈ Finset.range 3, expectedCount (animals ty).mat.val i j * r.val.get i j = (animals ty).mat.val.total := by
  obtain ⟨r, h, _⟩ := C16_epmi (animals ty).mat (animals_rows ty) (animals_cols ty) (animals_nonneg _)
  refine ⟨r, h, ?_, C141_epmi_average (animals_rows ty) (animals_cols ty) (animals_nonneg _) h⟩
  have := (C141_epmi (animals_rows ty) (animals_cols ty) (animals_nonneg _) h (i := 1) (j := 0)
    (by simp [animals, exMat, TMat.nr]) (by simp [animals, exMat, TMat.nc])).1
  rwa [animals_expected, animals_count] at this

/-- Counts that are independent: all weights are zero. -/
def evenCounts : TMat ℝ := ⟨.sparse, Mat.of 2 2 (fun i j => (i + 1) * (j + 1))⟩

theorem evenCounts_nonneg : NonNegative evenCounts.val := by
  intro i j hi hj
  rw [show evenCounts.val.get i j = ((i : ℝ) + 1) * (j + 1) by simp only [evenCounts]; exact Mat.of_get_lt (nr := 2) (nc := 2) hi hj]
  positivity

theorem evenCounts_independent : Independent evenCounts.val := by
  intro i j hi hj
  have hi' : i < 2 := hi
  have hj' : j < 2 := hj
  have : i = 0 ∨ i = 1 := by omega
  have : j = 0 ∨ j = 1 := by omega
  rcases ‹i = 0 ∨ i = 1› with rfl | rfl <;> rcases ‹j = 0 ∨ j = 1› with rfl | rfl <;>
    simp [evenCounts, expectedCount, Mat.rowSum, Mat.colSum, Mat.total, Mat.of_get, Finset.sum_range_succ] <;> norm_num

example : ∃ r, ScalingT.ppmi.apply evenCounts none = .ok r ∧ ∀ i j, i < 2 → j < 2 → r.val.get i j = 0 := by
  obtain ⟨r, h, _⟩ := C16_ppmi evenCounts (by decide) (by decide) evenCounts_nonneg
  exact ⟨r, h, ((C141_independent (t := .ppmi) (m := evenCounts) (by decide) (by decide) evenCounts_nonneg
    ⟨0, 0, by decide, by decide, by simp [evenCounts, Mat.of_get]⟩ h).1 (.inl rfl)).2 evenCounts_independent⟩

end
end Dissect.Examples
