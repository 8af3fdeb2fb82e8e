import Verif.Props.Scaling
import Mathlib.Algebra.BigOperators.Field
import Mathlib.Tactic.FieldSimp
import Mathlib.Tactic.Linarith

/-! # C141: association weights compare the counts with those expected by chance -/

namespace Dissect
noncomputable section
open Finset

/-! ### Specification -/

/-- The count expected by chance: what the cell would hold if words and contexts were independent. -/
def expectedCount (A : Mat ℝ) (i j : ℕ) : ℝ := A.rowSum i * A.colSum j / A.total

/-- Words and contexts are independent: every count is the expected one. -/
def Independent (A : Mat ℝ) : Prop := ∀ i j, i < A.nr → j < A.nc → A.get i j = expectedCount A i j

/-- The mutual information of words and contexts (in nats). -/
def mutualInformation (A : Mat ℝ) : ℝ :=
  ∑ i ∈ range A.nr, ∑ j ∈ range A.nc, A.get i j / A.total * Real.log (A.get i j / expectedCount A i j)

/-! ### Lemmas -/

theorem total_colSum (A : Mat ℝ) : ∑ j ∈ range A.nc, A.colSum j = A.total := by
  unfold Mat.colSum Mat.total
  rw [Finset.sum_comm]

theorem total_rowSum (A : Mat ℝ) : ∑ i ∈ range A.nr, A.rowSum i = A.total := rfl

/-- The expected counts sum up to the total, too. -/
theorem expectedCount_total (A : Mat ℝ) (ht : A.total ≠ 0) :
    ∑ i ∈ range A.nr, ∑ j ∈ range A.nc, expectedCount A i j = A.total := by
  unfold expectedCount
  simp only [← Finset.sum_div, ← Finset.mul_sum, total_colSum, ← Finset.sum_mul, total_rowSum]
  field_simp

theorem expected_nonneg {A : Mat ℝ} (h : NonNegative A) {i j : ℕ} (hi : i < A.nr) (hj : j < A.nc) :
    0 ≤ expectedCount A i j := by
  refine div_nonneg (mul_nonneg ?_ ?_) ?_
  · exact Finset.sum_nonneg fun k hk => h i k hi (Finset.mem_range.1 hk)
  · exact Finset.sum_nonneg fun k hk => h k j (Finset.mem_range.1 hk) hj
  · exact Finset.sum_nonneg fun k hk => Finset.sum_nonneg fun l hl => h k l (Finset.mem_range.1 hk) (Finset.mem_range.1 hl)

theorem expected_pos {A : Mat ℝ} (h : NonNegative A) {i j : ℕ} (hi : i < A.nr) (hj : j < A.nc) (h0 : A.get i j ≠ 0) :
    0 < expectedCount A i j := by
  obtain ⟨h1, h2, h3⟩ := C16_no_division_by_zero A h i j hi hj h0
  exact div_pos (mul_pos h1 h2) h3

theorem ratio_eq {A : Mat ℝ} (h : NonNegative A) {i j : ℕ} (hi : i < A.nr) (hj : j < A.nc) (h0 : A.get i j ≠ 0) :
    A.get i j * A.total / (A.rowSum i * A.colSum j) = A.get i j / expectedCount A i j := by
  obtain ⟨h1, h2, h3⟩ := C16_no_division_by_zero A h i j hi hj h0
  unfold expectedCount
  field_simp

theorem ppmiSpec_pos {A : Mat ℝ} (h : NonNegative A) {i j : ℕ} (hi : i < A.nr) (hj : j < A.nc) :
    0 < ppmiSpec A i j ↔ expectedCount A i j < A.get i j := by
  unfold ppmiSpec
  by_cases h0 : A.get i j = 0
  · rw [if_pos h0, h0]
    exact ⟨fun h => absurd h (lt_irrefl _), fun h' => absurd h' (not_lt.2 (expected_nonneg h hi hj))⟩
  · have he := expected_pos h hi hj h0
    have hx : 0 < A.get i j := lt_of_le_of_ne (h i j hi hj) (Ne.symm h0)
    rw [if_neg h0, ratio_eq h hi hj h0, lt_max_iff]
    simp only [lt_irrefl, false_or]
    rw [Real.log_pos_iff (div_pos hx he).le, one_lt_div he]

theorem ppmiSpec_nonneg (A : Mat ℝ) (i j : ℕ) : 0 ≤ ppmiSpec A i j := by
  unfold ppmiSpec
  split
  · exact le_rfl
  · exact le_max_left _ _

/-- If no count exceeds the expected one, all counts are the expected ones. -/
theorem independent_of_le {A : Mat ℝ} (ht : A.total ≠ 0)
    (hle : ∀ i j, i < A.nr → j < A.nc → A.get i j ≤ expectedCount A i j) : Independent A := by
  have hs : ∑ i ∈ range A.nr, ∑ j ∈ range A.nc, (expectedCount A i j - A.get i j) = 0 := by
    simp only [Finset.sum_sub_distrib]
    rw [expectedCount_total A ht]
    exact sub_self _
  have hnn : ∀ i ∈ range A.nr, 0 ≤ ∑ j ∈ range A.nc, (expectedCount A i j - A.get i j) := fun i hi =>
    Finset.sum_nonneg fun j hj => sub_nonneg.2 (hle i j (Finset.mem_range.1 hi) (Finset.mem_range.1 hj))
  intro i j hi hj
  have h1 := (Finset.sum_eq_zero_iff_of_nonneg hnn).1 hs i (Finset.mem_range.2 hi)
  have h2 := (Finset.sum_eq_zero_iff_of_nonneg (fun j hj => sub_nonneg.2 (hle i j hi (Finset.mem_range.1 hj)))).1 h1 j
    (Finset.mem_range.2 hj)
  linarith

theorem total_ne_zero {A : Mat ℝ} (h : NonNegative A) (hx : ∃ i j, i < A.nr ∧ j < A.nc ∧ A.get i j ≠ 0) : A.total ≠ 0 := by
  obtain ⟨i, j, hi, hj, h0⟩ := hx
  exact (C16_no_division_by_zero A h i j hi hj h0).2.2.ne'

/-- The information of one cell is at least the surplus of the cell. -/
theorem cell_information {a e t : ℝ} (ha : 0 ≤ a) (he : a ≠ 0 → 0 < e) (he0 : 0 ≤ e) (ht : 0 < t) :
    (a - e) / t ≤ a / t * Real.log (a / e) := by
  by_cases h0 : a = 0
  · subst h0
    simp only [zero_div, zero_mul, zero_sub]
    exact div_nonpos_of_nonpos_of_nonneg (neg_nonpos.2 he0) ht.le
  · have hp := he h0
    have hap : 0 < a := lt_of_le_of_ne ha (Ne.symm h0)
    have h1 := Real.one_sub_inv_le_log_of_pos (div_pos hap hp)
    rw [inv_div] at h1
    have h2 := mul_le_mul_of_nonneg_left h1 (div_pos hap ht).le
    refine le_trans (le_of_eq ?_) h2
    field_simp

/-! ### The property -/

/-- **C141** EPMI is the ratio between the count and the expected count. -/
theorem C141_epmi {m r : TMat ℝ} (hr : 0 < m.nr) (hc : 0 < m.nc) (h : NonNegative m.val) (ha : ScalingT.epmi.apply m none = .ok r)
    {i j : ℕ} (hi : i < m.nr) (hj : j < m.nc) :
    r.val.get i j * expectedCount m.val i j = m.val.get i j ∧ (m.val.get i j ≠ 0 → 0 < expectedCount m.val i j) := by
  obtain ⟨u, hu, _, _, _, hv⟩ := C16_epmi m hr hc h
  obtain rfl : r = u := by have := ha.symm.trans hu; injection this
  refine ⟨?_, expected_pos h hi hj⟩
  rw [hv i j hi hj]
  unfold epmiSpec
  split
  · rename_i h0; rw [h0, zero_mul]
  · rename_i h0
    rw [ratio_eq h hi hj h0, div_mul_cancel₀ _ (expected_pos h hi hj h0).ne']

/-- **C141** Hence the average of the EPMI weights, taken with the expected counts, is one. -/
theorem C141_epmi_average {m r : TMat ℝ} (hr : 0 < m.nr) (hc : 0 < m.nc) (h : NonNegative m.val)
    (ha : ScalingT.epmi.apply m none = .ok r) :
    ∑ i ∈ range m.nr, ∑ j ∈ range m.nc, expectedCount m.val i j * r.val.get i j = m.val.total := by
  refine Finset.sum_congr rfl fun i hi => Finset.sum_congr rfl fun j hj => ?_
  rw [mul_comm]
  exact (C141_epmi hr hc h ha (Finset.mem_range.1 hi) (Finset.mem_range.1 hj)).1

/-- **C141** A cell has a positive PPMI or PLMI weight exactly when its count exceeds the expected one; other cells are 0. -/
theorem C141_positive {m r : TMat ℝ} (hr : 0 < m.nr) (hc : 0 < m.nc) (h : NonNegative m.val) {t : ScalingT}
    (ht : t = .ppmi ∨ t = .plmi) (ha : t.apply m none = .ok r) {i j : ℕ} (hi : i < m.nr) (hj : j < m.nc) :
    (expectedCount m.val i j < m.val.get i j → 0 < r.val.get i j) ∧ (m.val.get i j ≤ expectedCount m.val i j → r.val.get i j = 0) := by
  have hpos := ppmiSpec_pos h hi hj
  have hnn := ppmiSpec_nonneg m.val i j
  rcases ht with rfl | rfl
  · obtain ⟨u, hu, _, _, _, hv⟩ := C16_ppmi m hr hc h
    obtain rfl : r = u := by have := ha.symm.trans hu; injection this
    rw [hv i j hi hj]
    exact ⟨hpos.2, fun hle => le_antisymm (not_lt.1 fun hlt => not_lt.2 hle (hpos.1 hlt)) hnn⟩
  · obtain ⟨u, hu, _, _, _, hv⟩ := C16_plmi m hr hc h
    obtain rfl : r = u := by have := ha.symm.trans hu; injection this
    rw [hv i j hi hj]
    refine ⟨fun hlt => mul_pos (lt_of_le_of_lt (expected_nonneg h hi hj) hlt) (hpos.2 hlt), fun hle => ?_⟩
    beta_reduce
    rw [le_antisymm (not_lt.1 fun hlt => not_lt.2 hle (hpos.1 hlt)) hnn, mul_zero]

/-- **C141** PPMI and PLMI weights are zero everywhere exactly when words and contexts are independent; then EPMI is one in
every non-empty cell. -/
theorem C141_independent {m r : TMat ℝ} (hr : 0 < m.nr) (hc : 0 < m.nc) (h : NonNegative m.val)
    (hx : ∃ i j, i < m.nr ∧ j < m.nc ∧ m.val.get i j ≠ 0) {t : ScalingT} (ha : t.apply m none = .ok r) :
    (t = .ppmi ∨ t = .plmi → ((∀ i j, i < m.nr → j < m.nc → r.val.get i j = 0) ↔ Independent m.val)) ∧
    (t = .epmi → ((∀ i j, i < m.nr → j < m.nc → m.val.get i j ≠ 0 → r.val.get i j = 1) ∧
      (∀ i j, i < m.nr → j < m.nc → m.val.get i j = 0 → expectedCount m.val i j = 0) ↔ Independent m.val)) := by
  refine ⟨fun ht => ⟨fun h0 => ?_, fun hI i j hi hj => ?_⟩, ?_⟩
  · refine independent_of_le (total_ne_zero h hx) fun i j hi hj => not_lt.1 fun hlt => ?_
    have := (C141_positive hr hc h ht ha hi hj).1 hlt
    rw [h0 i j hi hj] at this
    exact lt_irrefl _ this
  · exact (C141_positive hr hc h ht ha hi hj).2 (hI i j hi hj).le
  · rintro rfl
    constructor
    · rintro ⟨h1, h2⟩ i j hi hj
      by_cases h0 : m.val.get i j = 0
      · rw [h0, h2 i j hi hj h0]
      · have := (C141_epmi hr hc h ha hi hj).1
        rw [h1 i j hi hj h0, one_mul] at this
        exact this.symm
    · intro hI
      refine ⟨fun i j hi hj h0 => ?_, fun i j hi hj h0 => by rw [← hI i j hi hj, h0]⟩
      have := (C141_epmi hr hc h ha hi hj).1
      rw [← hI i j hi hj] at this
      exact mul_right_cancel₀ h0 (by rw [this, one_mul])

/-- **C141** Mutual information is never negative, and the PLMI weights add up to at least the number of counts times the mutual
information (they leave out the negative terms). -/
theorem C141_mutual_information {m r : TMat ℝ} (hr : 0 < m.nr) (hc : 0 < m.nc) (h : NonNegative m.val)
    (hx : ∃ i j, i < m.nr ∧ j < m.nc ∧ m.val.get i j ≠ 0) (ha : ScalingT.plmi.apply m none = .ok r) :
    0 ≤ mutualInformation m.val ∧
    m.val.total * mutualInformation m.val ≤ ∑ i ∈ range m.nr, ∑ j ∈ range m.nc, r.val.get i j := by
  obtain ⟨a, b, ha', hb', h0⟩ := hx
  have hT : 0 < m.val.total := (C16_no_division_by_zero m.val h a b ha' hb' h0).2.2
  constructor
  · have key : ∑ i ∈ range m.nr, ∑ j ∈ range m.nc, (m.val.get i j - expectedCount m.val i j) / m.val.total ≤ mutualInformation m.val :=
      Finset.sum_le_sum fun i hi => Finset.sum_le_sum fun j hj =>
        cell_information (h i j (Finset.mem_range.1 hi) (Finset.mem_range.1 hj))
          (expected_pos h (Finset.mem_range.1 hi) (Finset.mem_range.1 hj))
          (expected_nonneg h (Finset.mem_range.1 hi) (Finset.mem_range.1 hj)) hT
    refine le_trans (le_of_eq ?_) key
    simp only [← Finset.sum_div, Finset.sum_sub_distrib]
    have e := expectedCount_total m.val hT.ne'
    have e2 : ∑ i ∈ range m.nr, ∑ j ∈ range m.nc, m.val.get i j = m.val.total := rfl
    rw [e2, e, sub_self, zero_div]
  · obtain ⟨u, hu, _, _, _, hv⟩ := C16_plmi m hr hc h
    obtain rfl : r = u := by have := ha.symm.trans hu; injection this
    unfold mutualInformation
    rw [Finset.mul_sum]
    refine Finset.sum_le_sum fun i hi => ?_
    rw [Finset.mul_sum]
    refine Finset.sum_le_sum fun j hj => ?_
    have hi' := Finset.mem_range.1 hi
    have hj' := Finset.mem_range.1 hj
    rw [hv i j hi' hj', ← mul_assoc, mul_div_cancel₀ _ hT.ne']
    refine mul_le_mul_of_nonneg_left ?_ (h i j hi' hj')
    unfold ppmiSpec
    split
    · rename_i h0; rw [h0]; simp
    · rename_i h0
      rw [ratio_eq h hi' hj' h0]
      exact le_max_right _ _

end
end Dissect
