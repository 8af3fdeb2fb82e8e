import Verif.Examples.Compose
import Verif.Props.StackMore
import Verif.Props.Geometry

/-! # Concrete instances: C158, C159 -/

namespace Dissect
noncomputable section
namespace Examples

theorem animals_stackable (ty : MTy) : Stackable (animals ty) := ⟨animals_wf _, animals_plain _, Nat.succ_pos 1, Nat.succ_pos 2⟩
theorem adjectives_stackable (ty : MTy) : Stackable (adjectives ty) :=
  ⟨adjectives_wf _, C04_plain_rows _ _ _ _ _ _ _ (adjectives_new ty), Nat.succ_pos 1, Nat.succ_pos 2⟩

/-- Another word in the same contexts. -/
def moose : Space String where
  mat := ⟨.sparse, Mat.of 1 3 (fun _ j => if j = 0 then 7 else 0)⟩
  id2row := ["moose"]
  id2col := ["a", "b", "c"]
  row2id := ⟨[("moose", 0)], by simp⟩
  col2id := ⟨[("a", 0), ("b", 1), ("c", 2)], by simp⟩
  ops := []
  elemShape := [3]

theorem moose_new : Space.new moose.mat ["moose"] ["a", "b", "c"] none none [] none = .ok moose := rfl
theorem moose_stackable : Stackable moose :=
  ⟨(C01_result _ _ _ _ _ _ _ _ moose_new).1, C04_plain_rows _ _ _ _ _ _ _ moose_new, by decide, by decide⟩

theorem stacked_ok (ty ty' : MTy) : ∃ s, Space.vstack (adjectives ty) (animals ty') = .ok s :=
  (stack_iff (adjectives_stackable ty) (animals_stackable ty')).2 ⟨rfl, rfl, show ∀ w ∈ ["dog", "cat"], w ∉ ["red", "big"] by decide⟩

/-- C159: three spaces, sparse and dense, stacked both ways. -/
example : ∃ s12 s s23 s', Space.vstack (adjectives .dense) (animals .sparse) = .ok s12 ∧ Space.vstack s12 moose = .ok s ∧
    Space.vstack (animals .sparse) moose = .ok s23 ∧ Space.vstack (adjectives .dense) s23 = .ok s' ∧ SameContent s s' := by
  obtain ⟨s12, e1⟩ := stacked_ok .dense .sparse
  obtain ⟨_, r1, c1, _, n1, _⟩ := C04_words_keep_vectors _ _ _ (adjectives_wf _) (animals_wf _) e1
  obtain ⟨s, e2⟩ := (stack_iff ((adjectives_stackable _).vstack (animals_stackable _) e1) moose_stackable).2
    ⟨by rw [n1]; rfl, by rw [c1]; rfl, by rw [r1]; decide⟩
  obtain ⟨g1, g2⟩ := C159_grouping (adjectives .dense) (animals .sparse) moose (adjectives_stackable _) (animals_stackable _)
    moose_stackable
  obtain ⟨s23, s', e3, e4⟩ := g1.1 ⟨s12, s, e1, e2⟩
  exact ⟨s12, s, s23, s', e1, e2, e3, e4, g2 s12 s s23 s' e1 e2 e3 e4⟩

/-- C159: both orders. -/
example : ∃ s s', Space.vstack (adjectives .dense) (animals .dense) = .ok s ∧
    Space.vstack (animals .dense) (adjectives .dense) = .ok s' ∧ ∀ j, s.vecOf "dog" j = s'.vecOf "dog" j := by
  obtain ⟨s, e⟩ := stacked_ok .dense .dense
  obtain ⟨g1, g2⟩ := C159_order (adjectives .dense) (animals .dense) (adjectives_stackable _) (animals_stackable _)
  obtain ⟨s', e'⟩ := g1.1 ⟨s, e⟩
  obtain ⟨_, r1, _⟩ := C04_words_keep_vectors _ _ _ (adjectives_wf _) (animals_wf _) e
  exact ⟨s, s', e, e', (g2 s s' e e').2.2 "dog" (by rw [r1]; decide)⟩

/-- C159: normalising before or after stacking. -/
example (env : Env) : ∃ s s' t1 t2 t, Space.vstack (adjectives .dense) (animals .sparse) = .ok s ∧
    s.apply env (.scaling (.rowNorm .length)) = .ok s' ∧ (adjectives .dense).apply env (.scaling (.rowNorm .length)) = .ok t1 ∧
    (animals .sparse).apply env (.scaling (.rowNorm .length)) = .ok t2 ∧ Space.vstack t1 t2 = .ok t ∧ SameContent s' t := by
  obtain ⟨s, e⟩ := stacked_ok .dense .sparse
  obtain ⟨s', t1, t2, t, h⟩ := C159_rowwise env _ _ s (adjectives_stackable .dense) (animals_stackable .sparse) e
    (.rowNorm .length) trivial
  exact ⟨s, s', t1, t2, t, e, h⟩

/-- C159: composing adjectives and nouns of one space. -/
example : ∃ s r r', Space.vstack (adjectives .dense) (animals .sparse) = .ok s ∧
    ((newMultiplicative : Composer String).compose phrases (.one s)).2 = .ok r ∧
    ((newMultiplicative : Composer String).compose phrases (.tuple [adjectives .dense, animals .sparse])).2 = .ok r' ∧
    r.id2row = r'.id2row := by
  obtain ⟨s, e⟩ := stacked_ok .dense .sparse
  have hf : (newMultiplicative : Composer String).model.Fits (adjectives .dense).mat.nc (animals .sparse).mat.nc 3 :=
    ⟨by decide, by decide, by decide, rfl, rfl⟩
  have hc : (newMultiplicative : Composer String).ColumnsFit 3 := fun c h => by cases h
  have hd : ∀ t ∈ phrases, t.1 ∉ (animals .sparse).id2row ∧ t.2.1 ∉ (adjectives .dense).id2row := by decide
  obtain ⟨r, hr⟩ := (C159_compose_iff newMultiplicative phrases _ _ s 3 (adjectives_wf _) (animals_wf _) e hf hc hd).2 compose_ok
  obtain ⟨r', hr'⟩ := compose_ok
  obtain ⟨h1, _⟩ := C159_compose newMultiplicative phrases _ _ s 3 (adjectives_wf _) (animals_wf _) e hf hc hd r r' hr hr'
  exact ⟨s, r, r', e, hr, hr', h1⟩

/-- C158: words of two spaces. -/
theorem three_words : ThreeWords (animals .dense) (adjectives .sparse) (animals .dense) "dog" "red" "cat" 3 :=
  ⟨animals_wf _, adjectives_wf _, animals_wf _, by decide, rfl, rfl, rfl, by decide, by decide, by decide⟩

example := C158_triangle _ _ _ _ _ _ _ three_words
example := C158_angles _ _ _ _ _ _ _ three_words
example := C158_consistent (animals .dense) (adjectives .sparse) "dog" "red" 3
  ⟨animals_wf _, adjectives_wf _, adjectives_wf _, by decide, rfl, rfl, rfl, by decide, by decide, by decide⟩

end Examples
end
end Dissect
