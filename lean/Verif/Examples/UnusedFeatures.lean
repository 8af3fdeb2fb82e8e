import Verif.Examples.RowLaws
import Verif.Props.UnusedFeatures

/-! # Concrete instances: C170 -/

namespace Dissect
open Finset
noncomputable section
namespace Examples

/-- The counts of the example with a feature that no word has. -/
def paddedMat : TMat ℝ := ⟨.sparse, Mat.of 5 3 fun i j => (herdMat .dense).val.get i j⟩

theorem paddedMat_padded : Padded (herd .dense).mat.val paddedMat.val := by
  rw [herd_mat]
  refine Padded.of_get rfl (by show 2 ≤ 3; decide) fun i j hi hj => ?_
  exact Mat.of_get_lt (show i < 5 from hi) (show j < 3 from hj)

example (env : Env) : ∃ s' t t' : Space String, s'.mat = paddedMat ∧
    (herd .dense).applyAll env ([ScalingT.ppmi].map .scaling) = .ok t ∧
    s'.applyAll env ([ScalingT.ppmi].map .scaling) = .ok t' ∧ t'.mat.nc = 3 ∧
    t'.getSim "dog" "cat" .cos none = t.getSim "dog" "cat" .cos none ∧
    t'.getNeighbours "dog" 3 .lin none = t.getNeighbours "dog" 3 .lin none := by
  obtain ⟨s', hs⟩ := (C01_accepts_iff paddedMat ["dog", "dogs", "unicorn", "cat", "hound"] ["a", "b", "c"] none none [] none).2
    ⟨by simp, by simp, by simp, by simp, rfl, fun _ => rfl, by simp⟩
  obtain ⟨w', h1, h2, _⟩ := C01_result _ _ _ _ _ _ _ s' hs
  have hp : Padded (herd .dense).mat.val s'.mat.val := by rw [h1]; exact paddedMat_padded
  have hr0 : 0 < (herd .dense).mat.nr := by rw [herd_nr]; decide
  have hc0 : 0 < (herd .dense).mat.nc := by rw [herd_nc]; decide
  have hr0' : 0 < s'.mat.nr := by rw [h1]; exact Nat.succ_pos _
  have hn' : NonNegative s'.mat.val := by
    intro i j hi hj
    rw [hp.get]
    by_cases hj2 : j < (herd .dense).mat.val.nc
    · exact herd_nonneg .dense i j (by rw [← hp.rows]; exact hi) hj2
    · rw [(herd .dense).mat.val.get_col_oob i (not_lt.1 hj2)]
  obtain ⟨t, ht⟩ := (C05_apply_total env (herd .dense) (herd_wf _) hr0 hc0).1 .ppmi (herd_nonneg _)
  obtain ⟨t', ht'⟩ := (C05_apply_total env s' w' hr0' (by rw [h1]; exact Nat.succ_pos _)).1 .ppmi hn'
  have a : (herd .dense).applyAll env ([ScalingT.ppmi].map .scaling) = .ok t := by simp [Space.applyAll, ht]
  have a' : s'.applyAll env ([ScalingT.ppmi].map .scaling) = .ok t' := by simp [Space.applyAll, ht']
  have hpt := C170_weightings env env [.ppmi] _ s' t t' hr0 hc0 hp a a'
  obtain ⟨r1, _, wt⟩ := applyAll_rows a
  obtain ⟨r2, _, wt'⟩ := applyAll_rows a'
  have hnc := (C05_scaling_keeps_columns env _ t _ hr0 ht).2.2.2.1
  have hnc' := (C05_scaling_keeps_columns env s' t' _ hr0' ht').2.2.2.1
  have hs := fun sim => C170_similarities t t' (wt (herd_wf _)) (wt' w') (by rw [hnc]; exact hc0)
    (by rw [r1, r2, h2, herd_words]) hpt sim
  exact ⟨s', t, t', h1, a, a', by rw [hnc', h1]; rfl, (hs .cos).1 _ _, (hs .lin).2 _ _⟩

end Examples
end
end Dissect
