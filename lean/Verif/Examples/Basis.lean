import Verif.Props.Basis
import Verif.Examples.TargetScale

/-! # C153 and C154 applied to a concrete training set -/

namespace Dissect
noncomputable section
namespace Examples

/-- The rotation with cosine 3/5 and sine 4/5. -/
def rot : Mat ℝ := Mat.of 2 2 (fun i j => if i = j then 3 / 5 else if i = 0 then 4 / 5 else -4 / 5)

theorem rot_ortho : IsOrtho 2 rot := by
  refine ⟨rfl, rfl, fun i hi j hj => ?_⟩
  unfold dot rot
  rw [Finset.sum_range_succ, Finset.sum_range_one, Mat.of_get_lt hi (by omega), Mat.of_get_lt hi (by omega),
    Mat.of_get_lt hj (by omega), Mat.of_get_lt hj (by omega)]
  have hi2 : i = 0 ∨ i = 1 := by omega
  have hj2 : j = 0 ∨ j = 1 := by omega
  rcases hi2 with rfl | rfl <;> rcases hj2 with rfl | rfl <;> norm_num

theorem plane_ok (f : ℕ → ℕ → ℝ) : ∃ s : Space ℕ, s.WF ∧ s.mat.nc = 2 ∧ s.id2row = [0, 1, 2, 3] ∧ s.elemShape = [2] ∧
    (∀ w, w < 4 → ∀ j < 2, s.vecOf w j = f w j) ∧ s.id2col = [] := by
  obtain ⟨s, s1, s2, s3, s4, s5⟩ := exists_space (Mat.of 4 2 f) [0, 1, 2, 3] (by simp) rfl none (by simp)
  refine ⟨s, s1, by rw [s2]; rfl, s3, s5, fun w hw j hj => ?_, s4⟩
  unfold Space.vecOf
  rw [s2, s3]
  have : [0, 1, 2, 3].idxOf w = w := by
    have : w = 0 ∨ w = 1 ∨ w = 2 ∨ w = 3 := by omega
    rcases this with rfl | rfl | rfl | rfl <;> rfl
  rw [this, Mat.of_get_lt hw hj]

/-- Four words with the vectors (1, 0), (2, 1), (3, 4), (4, 9). -/
def flatVec : ℕ → ℕ → ℝ := fun w j => if j = 0 then (w : ℝ) + 1 else (w : ℝ) ^ 2
def flat : Space ℕ := (plane_ok flatVec).choose
/-- The same words after the rotation. -/
def flat' : Space ℕ := (plane_ok (fun w => turn 2 rot (flatVec w))).choose

theorem flat_wf : flat.WF := (plane_ok flatVec).choose_spec.1
theorem flat_nc : flat.mat.nc = 2 := (plane_ok flatVec).choose_spec.2.1
theorem flat_rows : flat.id2row = [0, 1, 2, 3] := (plane_ok flatVec).choose_spec.2.2.1
theorem flat_shape : flat.elemShape = [2] := (plane_ok flatVec).choose_spec.2.2.2.1
theorem flat_wf' : flat'.WF := (plane_ok (fun w => turn 2 rot (flatVec w))).choose_spec.1
theorem flat_shape' : flat'.elemShape = [2] := (plane_ok (fun w => turn 2 rot (flatVec w))).choose_spec.2.2.2.1
theorem flat_pos : 0 < flat.mat.nc := by rw [flat_nc]; omega
theorem flat_ortho : IsOrtho flat.mat.nc rot := by rw [flat_nc]; exact rot_ortho
theorem flat_arg : (ArgSpace.one flat).extract = .ok (flat, flat) := (extract_iff _ _ _).2 (Or.inl ⟨rfl, rfl⟩)
theorem flat_arg' : (ArgSpace.one flat').extract = .ok (flat', flat') := (extract_iff _ _ _).2 (Or.inl ⟨rfl, rfl⟩)

theorem flat_turned : TurnedSpace rot flat flat' := by
  obtain ⟨_, a2, a3, _, a5, _⟩ := (plane_ok flatVec).choose_spec
  obtain ⟨_, b2, b3, _, b5, _⟩ := (plane_ok (fun w => turn 2 rot (flatVec w))).choose_spec
  refine ⟨b3.trans a3.symm, b2.trans a2.symm, fun w hw j hj => ?_⟩
  rw [flat_nc] at hj ⊢
  have hw4 : w < 4 := by
    rw [flat_rows] at hw
    simp only [List.mem_cons, List.not_mem_nil, or_false] at hw
    omega
  refine (b5 w hw4 j hj).trans ?_
  unfold turn
  exact Finset.sum_congr rfl fun i hi => by rw [show flat.vecOf w i = flatVec w i from a5 w hw4 i (Finset.mem_range.1 hi)]

example := C153_similarity rot flat flat' flat flat' flat_ortho flat_turned flat_turned flat_wf flat_wf' flat_wf flat_wf' flat_pos rfl
  .cos (by decide) 1 3

example := C153_neighbours rot flat flat' flat flat' flat_ortho flat_turned flat_turned flat_wf flat_wf' flat_wf flat_wf' flat_pos rfl
  .euclid (by decide) 1 2 (by rw [flat_rows]; simp)

theorem flat_used : trainTriples flat flat flat train4 = [(0, 1, 3), (0, 0, 2)] := by
  unfold trainTriples; rw [flat_rows]; rfl
theorem flat_known : knownTriples flat flat train4 = [(0, 1, 3), (0, 0, 2)] := by
  unfold knownTriples; rw [flat_rows]; rfl
theorem flat_ne : trainTriples flat flat flat train4 ≠ [] := by rw [flat_used]; simp

/-- Inputs rotated, targets reflected. -/
example := C153_learner idealEnv idealEnv_ideal (.ridge true true lambdaGrid none)
  (Or.inr ⟨⟨[], none, none, none, none⟩, by rw [C54_configuration _ (by simp)]; simp [crossValidates]⟩) .dense .sparse
  (inputs .dense).val (Mat.of 3 2 (fun i j => (i : ℝ) * j)) rot (swapQ 1 1) rot_ortho (swapQ_ortho 1 1) rfl (by decide) (by decide) (by decide)

/-- Trained and composed in the two bases. -/
example : ∃ c1 c2 r r', full4.train idealEnv train4 (.one flat) flat = .ok c1 ∧ full4.train idealEnv train4 (.one flat') flat' = .ok c2 ∧
    (c1.compose train4 (.one flat)).2 = .ok r ∧ (c2.compose train4 (.one flat')).2 = .ok r' ∧ r.id2row = [3, 2] ∧ TurnedSpace rot r r' := by
  obtain ⟨c1, c2, e1, e2, h⟩ := C153_full_additive idealEnv idealEnv_ideal full4 none none _ (.lstsq true) (built_lstsq _) rfl train4 _ _
    flat flat' flat flat' flat flat' rot rot rot flat_ortho flat_ortho flat_ortho flat_turned flat_turned flat_turned flat_arg flat_arg'
    flat_wf flat_wf' flat_wf flat_wf' flat_wf flat_wf' flat_pos flat_pos flat_pos flat_ne
  obtain ⟨r, r', f1, f2, f3, f4⟩ := h _ _ flat flat' flat flat' train4 flat_arg flat_arg' flat_wf flat_wf' flat_wf flat_wf' rfl rfl
    flat_turned flat_turned (by rw [flat_known]; simp) (by rw [flat_known]; decide)
  exact ⟨c1, c2, r, r', e1, e2, f1, f2, by rw [f3, flat_known]; rfl, f4⟩

theorem flat_samples (f : ℕ) : lexSamples flat flat lex4 f = lexSamples count4 count4 lex4 f := by
  unfold lexSamples; rw [flat_rows, count4_rows]

example : ∃ m1 m2 r r', (lexModel 2).train idealEnv natLe lex4 flat flat = .ok m1 ∧
    (lexModel 2).train idealEnv natLe lex4 flat' flat' = .ok m2 ∧ m1.compose test4 flat = .ok r ∧
    m2.compose test4 flat' = .ok r' ∧ r.id2row = [30] ∧ TurnedSpace rot r r' :=
  C153_lexical idealEnv idealEnv_ideal natLe natLe_trans natLe_total natLe_anti (lexModel 2) (built_lstsq _) lex4
    flat flat' flat flat' rot rot flat_ortho flat_ortho flat_turned flat_turned flat_wf flat_wf' flat_wf flat_wf' flat_pos flat_pos
    (by rw [flat_shape, flat_nc]) (by rw [flat_shape', flat_turned.width, flat_nc]) (by rw [flat_shape]; simp) (by rw [flat_shape']; simp)
    (by decide) test4 flat flat' flat_wf flat_wf' rfl flat_turned [(9, 2, 30)]
    (by
      have := test4_known.symm
      rw [count4_rows] at this
      simp only [flat_samples, flat_rows]
      exact this) (by simp) (by simp)

example := C153_weighted idealEnv idealEnv_ideal (⟨.weighted (1 / 2) (1 / 2), none⟩ : Composer ℕ) _ _ rfl train4 _ _
  flat flat' flat flat' flat flat' 2 rot rot_ortho flat_turned flat_turned flat_turned flat_arg flat_arg'
  flat_wf flat_wf' flat_wf flat_wf' flat_wf flat_wf' (by omega) flat_nc flat_nc flat_nc flat_ne

example := C153_dilation idealEnv (⟨.dilation 1, none⟩ : Composer ℕ) _ rfl train4 _ _
  flat flat' flat flat' flat flat' 2 rot rot_ortho flat_turned flat_turned flat_turned flat_arg flat_arg'
  flat_wf flat_wf' flat_wf flat_wf' flat_wf flat_wf' (by omega) flat_nc flat_nc flat_nc flat_ne

example := C153_compose (⟨.dilation 3, none⟩ : Composer ℕ) ⟨.dilation 3, none⟩ (Or.inr ⟨3, rfl⟩) rfl train4 _ _
  flat flat' flat flat' 2 rot rot_ortho flat_turned flat_turned flat_arg flat_arg'
  flat_wf flat_wf' flat_wf flat_wf' (by omega) flat_nc flat_nc (fun _ h => by cases h) (fun _ h => by cases h)
  (by rw [flat_known]; simp) (by rw [flat_known]; decide)

/-! ## Exchanged constituents -/

theorem flat_cols : flat.id2col = flat'.id2col :=
  (plane_ok flatVec).choose_spec.2.2.2.2.2.trans (plane_ok (fun w => turn 2 rot (flatVec w))).choose_spec.2.2.2.2.2.symm

/-- First constituents in the one basis, second constituents in the other. -/
theorem mixed_arg : (ArgSpace.tuple [flat, flat']).extract = .ok (flat, flat') := (extract_iff _ _ _).2 (Or.inr ⟨rfl, flat_cols⟩)
theorem mixed_arg' : (ArgSpace.tuple [flat', flat]).extract = .ok (flat', flat) := (extract_iff _ _ _).2 (Or.inr ⟨rfl, flat_cols.symm⟩)
theorem mixed_used : trainTriples flat flat' flat train4 = [(0, 1, 3), (0, 0, 2)] := by
  unfold trainTriples; rw [flat_turned.rows, flat_rows]; rfl
theorem mixed_known : knownTriples flat flat' train4 = [(0, 1, 3), (0, 0, 2)] := by
  unfold knownTriples; rw [flat_turned.rows, flat_rows]; rfl

example : swapData train4 = [(1, 0, 3), (1, 7, 2), (0, 0, 2)] := rfl

example := C154_weighted idealEnv idealEnv_ideal (⟨.weighted (1 / 2) (1 / 2), none⟩ : Composer ℕ) _ _ rfl train4 _ _ flat flat' flat 2
  mixed_arg mixed_arg' flat_wf flat_wf' flat_wf (by omega) flat_nc (flat_turned.width.trans flat_nc) flat_nc (by rw [mixed_used]; simp)

example : ∃ c1 c2 r r', full4.train idealEnv train4 (.tuple [flat, flat']) flat = .ok c1 ∧
    full4.train idealEnv (swapData train4) (.tuple [flat', flat]) flat = .ok c2 ∧
    (c1.compose train4 (.tuple [flat, flat'])).2 = .ok r ∧ (c2.compose (swapData train4) (.tuple [flat', flat])).2 = .ok r' ∧
    r.id2row = [3, 2] ∧ r'.id2row = [3, 2] ∧ r'.vecOf 3 1 = r.vecOf 3 1 := by
  obtain ⟨c1, c2, e1, e2, _, h⟩ := C154_full_additive idealEnv idealEnv_ideal full4 none none _ (.lstsq true) (built_lstsq _) rfl train4
    _ _ flat flat' flat mixed_arg mixed_arg' flat_wf flat_wf' flat_wf flat_pos (by rw [flat_turned.width]; exact flat_pos) flat_pos
    (by rw [mixed_used]; simp)
  obtain ⟨r, r', f1, f2, f3, f4, _, _, f7⟩ := h _ _ flat flat' train4 mixed_arg mixed_arg' flat_wf flat_wf' rfl rfl
    (by rw [mixed_known]; simp) (by rw [mixed_known]; decide)
  rw [mixed_known] at f3
  exact ⟨c1, c2, r, r', e1, e2, f1, f2, f3, f4.trans f3, f7 3 (by rw [f3]; simp) 1 (by rw [flat_nc]; omega)⟩

end Examples
end
end Dissect
