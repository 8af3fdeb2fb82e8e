import Verif.Examples.Learn
import Verif.Examples.StackMore
import Verif.Props.Locality

/-! # Concrete instances: C160 -/

namespace Dissect
noncomputable section
namespace Examples

/-- Four numbers, and the same four numbers in another order among other words. -/
theorem other_words : ∃ s t : Space ℕ, LookAlike (· < 4) s t ∧ s.id2row = [0, 1, 2, 3] ∧ t.id2row = [5, 3, 1, 0, 2, 9] ∧
    s.mat.nc = 1 ∧ t.mat.nc = 1 ∧ s.elemShape = [1] ∧ t.elemShape = [1] ∧ s.id2col = t.id2col ∧ s.mat.nr = 4 ∧ t.mat.nr = 6 := by
  obtain ⟨s, wf, hm, rows, cols, sh⟩ := exists_space (Mat.of 4 1 (fun i _ => (i : ℝ) + 1)) [0, 1, 2, 3] (by decide) rfl none (by simp)
  obtain ⟨t, wf', hm', rows', cols', sh'⟩ := exists_space
    (Mat.of 6 1 (fun i _ => (([5, 3, 1, 0, 2, 9] : List ℕ).getD i 0 : ℝ) + 1)) [5, 3, 1, 0, 2, 9] (by decide) rfl none (by simp)
  refine ⟨s, t, ⟨wf, wf', by rw [hm, hm'], by rw [hm, hm']; rfl, ?_, ?_⟩, rows, rows', by rw [hm]; rfl, by rw [hm']; rfl, by rw [sh]; rfl,
    by rw [sh']; rfl, by rw [cols, cols'], by rw [hm]; rfl, by rw [hm']; rfl⟩
  · intro w hw
    rw [rows, rows']
    have : w = 0 ∨ w = 1 ∨ w = 2 ∨ w = 3 := by omega
    rcases this with rfl | rfl | rfl | rfl <;> decide
  · intro w hw _ j
    unfold Space.vecOf
    rw [hm, hm', rows, rows']
    have : w = 0 ∨ w = 1 ∨ w = 2 ∨ w = 3 := by omega
    rcases this with rfl | rfl | rfl | rfl <;> simp [Mat.of_get]

/-- C160: dilation, with the two spaces as argument and as phrase space; the training succeeds. -/
example (env : Env) : ∃ (s t : Space ℕ) (c' : Composer ℕ), s.id2row ≠ t.id2row ∧
    (⟨.dilation 2, none⟩ : Composer ℕ).train env [(0, 1, 3), (0, 0, 2)] (.one s) s = .ok c' ∧
    (⟨.dilation 2, none⟩ : Composer ℕ).train env [(0, 1, 3), (0, 0, 2)] (.one t) t = .ok c' := by
  obtain ⟨s, t, h, r1, r2, n1, n2, e1, e2, hc, k1, k2⟩ := other_words
  have hx : (ArgSpace.one s).extract = .ok (s, s) := (extract_iff _ _ _).2 (Or.inl ⟨rfl, rfl⟩)
  have hy : (ArgSpace.one t).extract = .ok (t, t) := (extract_iff _ _ _).2 (Or.inl ⟨rfl, rfl⟩)
  obtain ⟨lam, ht, _⟩ := C49_dilation env (⟨.dilation 2, none⟩ : Composer ℕ) _ rfl [(0, 1, 3), (0, 0, 2)] (.one s) s s s 1
    hx h.wf h.wf h.wf Nat.one_pos n1 n1 n1 (by unfold trainTriples; rw [r1]; decide)
  refine ⟨s, t, _, by rw [r1, r2]; decide, ht, ?_⟩
  rw [← C160_train_partial env _ _ _ _ s s s t t t hx hy (h.mono fun w hw => ?_) (h.mono fun w hw => ?_)
    (h.mono fun w hw => ?_) hc (fun _ => by rw [k1, k2]), ht]
  all_goals
    obtain ⟨x, hx, rfl⟩ := hw
    revert hx
    simp only [List.mem_cons, List.not_mem_nil, or_false]
    rintro (rfl | rfl) <;> decide

/-- C160: a lexical function trained with either space. -/
example : ∃ (s t : Space ℕ) (m' : LexFun ℕ), s.id2row ≠ t.id2row ∧
    (lexModel 1).train idealEnv natLe [(9, 0, 1), (8, 0, 2), (9, 1, 3)] s s = .ok m' ∧
    (lexModel 1).train idealEnv natLe [(9, 0, 1), (8, 0, 2), (9, 1, 3)] t t = .ok m' := by
  obtain ⟨s, t, h, r1, r2, n1, n2, e1, e2, hc, k1, k2⟩ := other_words
  obtain ⟨m', hm⟩ := ((C131_lexical_iff idealEnv idealEnv_ideal natLe natLe_trans natLe_total natLe_anti (lexModel 1)
    (built_lstsq _) [(9, 0, 1), (8, 0, 2), (9, 1, 3)] s s h.wf h.wf (by simp) (by omega) (by omega) (by rw [e1, n1])
    (by decide)).1).2 ⟨9, by unfold lexSamples; rw [r1]; decide⟩
  refine ⟨s, t, m', by rw [r1, r2]; decide, hm, ?_⟩
  rw [← C160_lexical_partial idealEnv natLe (lexModel 1) _ s s t t (h.mono fun w hw => ?_) (h.mono fun w hw => ?_)
    (e1.trans e2.symm) (e1.trans e2.symm) hc, hm]
  all_goals
    obtain ⟨x, hx, rfl⟩ := hw
    revert hx
    simp only [List.mem_cons, List.not_mem_nil, or_false]
    rintro (rfl | rfl | rfl) <;> decide

/-- C160: adjectives and nouns in one space or in two. -/
example (env : Env) : ∃ s c', Space.vstack (adjectives .dense) (animals .dense) = .ok s ∧
    (⟨.dilation 2, none⟩ : Composer String).train env [("red", "dog", "cat"), ("big", "cat", "dog")] (.one s) (animals .sparse) =
      .ok c' ∧
    (⟨.dilation 2, none⟩ : Composer String).train env [("red", "dog", "cat"), ("big", "cat", "dog")]
      (.tuple [adjectives .dense, animals .dense]) (animals .sparse) = .ok c' := by
  obtain ⟨s, e⟩ := stacked_ok .dense .dense
  obtain ⟨lam, ht, _⟩ := C49_dilation env (⟨.dilation 2, none⟩ : Composer String) _ rfl
    [("red", "dog", "cat"), ("big", "cat", "dog")] (.tuple [adjectives .dense, animals .dense]) (adjectives .dense)
    (animals .dense) (animals .sparse) 3 ((extract_iff _ _ _).2 (Or.inr ⟨rfl, rfl⟩)) (adjectives_wf _) (animals_wf _) (animals_wf _)
    (by decide) rfl rfl rfl (by unfold trainTriples; decide)
  refine ⟨s, _, e, ?_, ht⟩
  rw [C160_stacked_partial env _ _ _ _ s _ (adjectives_wf _) (animals_wf _) (animals_wf _) rfl e (by decide), ht]

example := C160_weighted_refuted idealEnv idealEnv_ideal

end Examples
end
end Dissect
