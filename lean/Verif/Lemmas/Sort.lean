import Verif.Model.Matrix
import Mathlib.Order.Defs.LinearOrder
import Mathlib.Data.List.Sort

/-! The stable descending sort used by `sorted_permutation`. -/

namespace Dissect
variable {K : Type} [LinearOrder K]

theorem sortedDesc_perm (n : ℕ) (key : ℕ → K) : (sortedDesc n key).Perm (List.range n) := by
  unfold sortedDesc; exact List.mergeSort_perm _ _

theorem sortedDesc_length (n : ℕ) (key : ℕ → K) : (sortedDesc n key).length = n := by
  rw [(sortedDesc_perm n key).length_eq, List.length_range]

theorem sortedDesc_nodup (n : ℕ) (key : ℕ → K) : (sortedDesc n key).Nodup :=
  (sortedDesc_perm n key).nodup_iff.2 List.nodup_range

theorem mem_sortedDesc {n : ℕ} {key : ℕ → K} {i : ℕ} : i ∈ sortedDesc n key ↔ i < n := by
  rw [(sortedDesc_perm n key).mem_iff, List.mem_range]

theorem not_both_sublists {l : List ℕ} (h : l.Nodup) {x y : ℕ} (hxy : [x, y].Sublist l)
    (hyx : [y, x].Sublist l) : False := by
  induction l with
  | nil => cases hxy
  | cons a l ih =>
    rw [List.nodup_cons] at h
    cases hxy with
    | cons _ h1 =>
      cases hyx with
      | cons _ h2 => exact ih h.2 h1 h2
      | cons_cons _ h2 => exact h.1 (h1.subset (by simp))
    | cons_cons _ h1 =>
      cases hyx with
      | cons _ h2 => exact h.1 (h2.subset (by simp))
      | cons_cons _ h2 => exact h.1 (h1.subset (by simp))

/-- Earlier means: larger key, or equal key and smaller index. -/
theorem sortedDesc_pairwise (n : ℕ) (key : ℕ → K) :
    (sortedDesc n key).Pairwise (fun a b => key b < key a ∨ (key b = key a ∧ a < b)) := by
  have hsort : (sortedDesc n key).Pairwise (fun a b => key b ≤ key a) := by
    have := List.pairwise_mergeSort (le := fun a b => decide (key b ≤ key a))
      (fun a b c hab hbc => by
        simp only [decide_eq_true_eq] at *
        exact le_trans hbc hab)
      (fun a b => by
        simp only [Bool.or_eq_true, decide_eq_true_eq]
        exact le_total _ _) (List.range n)
    simpa [sortedDesc] using this
  rw [List.pairwise_iff_forall_sublist] at hsort ⊢
  intro x y hxy
  have hle := hsort hxy
  rcases lt_or_eq_of_le hle with hlt | heq
  · exact Or.inl hlt
  · right
    refine ⟨heq, ?_⟩
    by_contra hcon
    have hne : x ≠ y := by
      have hn := (sortedDesc_nodup n key).sublist hxy
      simpa using hn
    have hyx : y < x := by omega
    have hx : x < n := mem_sortedDesc.1 (hxy.subset (by simp) : x ∈ sortedDesc n key)
    have hsub : [y, x].Sublist (List.range n) := by
      have h1 : [y, x].Pairwise (· < ·) := by simpa using hyx
      have h2 : (List.range n).Pairwise (· < ·) := List.pairwise_lt_range
      exact List.sublist_of_subperm_of_pairwise
        (List.subperm_of_subset (by simpa using (Ne.symm hne)) (by
          intro z hz
          simp only [List.mem_cons, List.not_mem_nil, or_false] at hz
          rw [List.mem_range]
          rcases hz with rfl | rfl <;> omega)) h1 h2
    have h3 : [y, x].Sublist (sortedDesc n key) := by
      unfold sortedDesc
      exact List.pair_sublist_mergeSort
        (fun a b c hab hbc => by
          simp only [decide_eq_true_eq] at *
          exact le_trans hbc hab)
        (fun a b => by
          simp only [Bool.or_eq_true, decide_eq_true_eq]
          exact le_total _ _) (by simp only [decide_eq_true_eq]; exact le_of_eq heq.symm) hsub
    exact not_both_sublists (sortedDesc_nodup n key) hxy h3

end Dissect
