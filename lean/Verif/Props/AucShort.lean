import Verif.Props.Scoring

/-! # C65: fewer predictions than gold values -/

namespace Dissect
noncomputable section

/-- **C65** `auc` called directly with valid gold values of which the last have no prediction raises `IndexError`: the gold
values up to the one without a prediction are 0 or 1. (Later ones are never looked at.) -/
theorem C65_too_few {gold pred : List ℝ} (hlen : pred.length < gold.length)
    (h : ∀ g ∈ gold.take (pred.length + 1), g = 0 ∨ g = 1) : auc gold pred = .error .indexError := by
  have key : ∀ (gold pred : List ℝ), pred.length < gold.length → (∀ g ∈ gold.take (pred.length + 1), g = 0 ∨ g = 1) →
      pointSet gold pred = .error .indexError := by
    intro gold
    induction gold with
    | nil => intro pred h; simp at h
    | cons g gs ih =>
      intro pred hl h
      have hg := h g (by simp)
      cases pred with
      | nil =>
        rw [pointSet.eq_def]
        simp only []
        rw [if_pos hg]
      | cons p ps =>
        rw [pointSet, if_pos hg, ih ps (by simpa using hl) (fun x hx => h x (by simp at hx ⊢; exact Or.inr hx)), error_bind]
  unfold auc
  simp only []
  rw [key gold pred hlen h]
  rfl

/-- **C65** and a gold value other than 0 and 1 among those that are looked at raises `ValueError`, whatever the lengths. -/
theorem C65_invalid_first {gold pred : List ℝ} (h : ∃ g ∈ gold.take (pred.length + 1), g ≠ 0 ∧ g ≠ 1) :
    auc gold pred = .error .valueError := by
  have key : ∀ (gold pred : List ℝ), (∃ g ∈ gold.take (pred.length + 1), g ≠ 0 ∧ g ≠ 1) →
      pointSet gold pred = .error .valueError := by
    intro gold
    induction gold with
    | nil => rintro pred ⟨g, hg, _⟩; simp at hg
    | cons g gs ih =>
      rintro pred ⟨x, hx, hx0⟩
      by_cases hg : g = 0 ∨ g = 1
      · cases pred with
        | nil =>
          simp only [List.length_nil, Nat.zero_add, List.take_succ_cons, List.take_zero, List.mem_singleton] at hx
          subst hx
          tauto
        | cons p ps =>
          simp only [List.length_cons, List.take_succ_cons, List.mem_cons] at hx
          rcases hx with rfl | hx
          · tauto
          · rw [pointSet, if_pos hg, ih ps ⟨x, by simpa using hx, hx0⟩, error_bind]
      · rw [pointSet.eq_def]
        simp only []
        rw [if_neg hg]
  unfold auc
  simp only []
  rw [key gold pred h]
  rfl

/-- Non-vacuity: three gold values and one prediction; the second gold value decides. -/
example : auc [1, 0, 7] [5] = .error .indexError ∧ auc [1, 7, 0] [5] = .error .valueError :=
  ⟨C65_too_few (by simp) (by simp), C65_invalid_first ⟨7, by simp, by norm_num, by norm_num⟩⟩

end
end Dissect
