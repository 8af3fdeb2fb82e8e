import Verif.Props.TargetScale
import Verif.Examples.Learn

/-! # C152 applied to a concrete training set -/

namespace Dissect
noncomputable section
namespace Examples

theorem count8_ok : ∃ s : Space ℕ, s.WF ∧ s.mat.nc = 1 ∧ s.id2row = [0, 1, 2, 3] ∧ s.elemShape = [1] ∧
    ∀ w, w < 4 → s.vecOf w 0 = 2 * ((w : ℝ) + 1) := by
  obtain ⟨s, s1, s2, s3, _, s5⟩ := exists_space (Mat.of 4 1 (fun i _ => 2 * ((i : ℝ) + 1))) [0, 1, 2, 3] (by simp) rfl none
    (by simp)
  refine ⟨s, s1, by rw [s2]; rfl, s3, s5, fun w hw => ?_⟩
  unfold Space.vecOf
  rw [s2, s3]
  have : [0, 1, 2, 3].idxOf w = w := by
    have : w = 0 ∨ w = 1 ∨ w = 2 ∨ w = 3 := by omega
    rcases this with rfl | rfl | rfl | rfl <;> rfl
  rw [this, Mat.of_get_lt hw Nat.one_pos]

/-- The words of `count4` with the vectors doubled. -/
def count8 : Space ℕ := count8_ok.choose
theorem count8_wf : count8.WF := count8_ok.choose_spec.1
theorem count8_shape : count8.elemShape = [1] := count8_ok.choose_spec.2.2.2.1
theorem count8_times : TimesSpace 2 count4 count8 := by
  obtain ⟨_, h2, h3, _, h5⟩ := count8_ok.choose_spec
  refine ⟨h3.trans count4_rows.symm, h2.trans count4_nc.symm, fun w hw j hj => ?_⟩
  rw [count4_nc] at hj
  obtain rfl : j = 0 := by omega
  have hw4 : w < 4 := by
    rw [count4_rows] at hw
    simp only [List.mem_cons, List.not_mem_nil, or_false] at hw
    omega
  exact (h5 w hw4).trans (by rw [count4_vec w hw4])

example := C152_weighted idealEnv idealEnv_ideal (⟨.weighted (1 / 2) (1 / 2), none⟩ : Composer ℕ) _ _ rfl train4 _ _ _ _ _ 1 2
  count8_times count4_arg count4_wf count4_wf count4_wf count8_wf Nat.one_pos count4_nc count4_nc count4_nc train4_ne

example := C152_full_additive idealEnv idealEnv_ideal full4 none none _ (.lstsq true) (built_lstsq _) rfl train4 _ _ _ _ _ 2
  two_ne_zero count8_times count4_arg count4_wf count4_wf count4_wf count8_wf count4_pos count4_pos count4_pos train4_ne

/-- The models trained with the phrase vectors and with the doubled ones compose the word 9 with the word 2. -/
example : ∃ m1 m2 r r', (lexModel 2).train idealEnv natLe lex4 count4 count4 = .ok m1 ∧
    (lexModel 2).train idealEnv natLe lex4 count4 count8 = .ok m2 ∧ m1.compose test4 count4 = .ok r ∧
    m2.compose test4 count4 = .ok r' ∧ r.id2row = [30] ∧ TimesSpace 2 r r' :=
  C152_lexical idealEnv idealEnv_ideal natLe natLe_trans natLe_total natLe_anti (lexModel 2) (built_lstsq _) lex4
    count4 _ _ 2 two_ne_zero count8_times count4_wf count4_wf count8_wf count4_pos count4_pos count4_shape'
    (by rw [count4_shape]; simp) (by rw [count8_shape]; simp) (by decide) test4 count4 count4_wf rfl [(9, 2, 30)] test4_known.symm (by simp) (by simp)

/-- Cross-validated ridge regression over the default grid. -/
example : ∃ X : Mat ℝ, (Learner.ridge true true lambdaGrid none).train idealEnv (inputs .dense) (outputs .dense) = .ok ⟨.dense, X⟩ ∧
    (Learner.ridge true true lambdaGrid none).train idealEnv (inputs .sparse) ⟨.sparse, (outputs .dense).val.smul (-3)⟩ =
      .ok ⟨.sparse, X.smul (-3)⟩ := by
  obtain ⟨X, h1, h2, _⟩ := C152_learner idealEnv idealEnv_ideal (.ridge true true lambdaGrid none)
    (Or.inr ⟨⟨[], none, none, none, none⟩, by rw [C54_configuration _ (by simp)]; simp [crossValidates]⟩) .dense .sparse
    (inputs .dense).val (outputs .dense).val rfl (by decide) (by decide) (by decide) (-3) (by norm_num)
  exact ⟨X, h1, h2⟩

end Examples
end
end Dissect
