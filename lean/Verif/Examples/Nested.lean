import Verif.Examples.Compose
import Verif.Props.Nested

/-! # C166: phrases of phrases over the animals -/

namespace Dissect
noncomputable section
namespace Examples

/-- Two phrases of two words. -/
def shortOnes : List (Triple String) := [("dog", "cat", "dog_cat"), ("cat", "cat", "cat_cat")]

theorem short_known : knownTriples (animals .sparse) (animals .sparse) shortOnes = shortOnes := by decide

/-- The first composition with one of the three simple models. -/
theorem short_run (c : Composer String) (hf : c.model.Fits 3 3 3) (hk : c.KeepsColumns (animals .sparse)) :
    ∃ c1 r, c.compose shortOnes (.one (animals .sparse)) = (c1, .ok r) ∧ r.id2row = ["dog_cat", "cat_cat"] := by
  obtain ⟨r, h1, h2⟩ := C38_compose c shortOnes (.one (animals .sparse)) _ _ 3 ((extract_iff _ _ _).2 (Or.inl ⟨rfl, rfl⟩))
    (animals_wf _) (animals_wf _) hf (keeps_fit hk (animals_wf _)) (by rw [short_known]; simp [shortOnes]) (by rw [short_known]; decide)
  exact ⟨_, r, Prod.ext rfl h1, by rw [h2.labels, short_known]; rfl⟩

/-- `(dog cat) cat` and `dog (cat cat)` can both be composed. -/
theorem both_groupings (c : Composer String) (hf : c.model.Fits 3 3 3) (hk : c.KeepsColumns (animals .sparse)) :
    (∃ v, NestedLeft c (animals .sparse) "dog" "cat" "cat" v) ∧ ∃ v, NestedRight c (animals .sparse) "dog" "cat" "cat" v := by
  obtain ⟨c1, r, h1, hr⟩ := short_run c hf hk
  have k1 : knownTriples r (animals .sparse) [("dog_cat", "cat", "long")] = [("dog_cat", "cat", "long")] := by
    unfold knownTriples; rw [hr]; decide
  have k2 : knownTriples (animals .sparse) r [("dog", "cat_cat", "long")] = [("dog", "cat_cat", "long")] := by
    unfold knownTriples; rw [hr]; decide
  constructor
  · obtain ⟨r2, g, -⟩ := C166_left_partial c c1 (animals .sparse) r shortOnes [("dog_cat", "cat", "long")] (animals_wf _) hf hk h1
      (by rw [k1]; simp) (by rw [k1]; simp)
    exact ⟨_, c1, shortOnes, _, r, r2, "dog_cat", "long", h1, g, by simp [shortOnes], by simp, by decide, by decide, by decide, rfl⟩
  · obtain ⟨r2, g, -⟩ := C166_right_partial c c1 (animals .sparse) r shortOnes [("dog", "cat_cat", "long")] (animals_wf _) hf hk h1
      (by rw [k2]; simp) (by rw [k2]; simp)
    exact ⟨_, c1, shortOnes, _, r, r2, "cat_cat", "long", h1, g, by simp [shortOnes], by simp, by decide, by decide, by decide, rfl⟩

/-- Multiplicative: both groupings exist and are equal. -/
example : ∃ v v', NestedLeft newMultiplicative (animals .sparse) "dog" "cat" "cat" v ∧
    NestedRight newMultiplicative (animals .sparse) "dog" "cat" "cat" v' ∧ ∀ j < 3, v j = v' j := by
  obtain ⟨⟨v, h1⟩, v', h2⟩ := both_groupings newMultiplicative ⟨by decide, by decide, by decide, rfl, rfl⟩
    (Or.inr ⟨rfl, fun _ _ _ _ h => by cases h⟩)
  exact ⟨v, v', h1, h2, C166_grouping _ _ (animals_wf _) (by decide) (Or.inl rfl) _ _ _ _ _ h1 h2⟩

/-- The mean of the two vectors: both groupings exist, and they differ in the first component. -/
example : ∃ c v v', newWeighted (.num (1 / 2)) (.num (1 / 2)) = .ok c ∧ NestedLeft c (animals .sparse) "dog" "cat" "cat" v ∧
    NestedRight c (animals .sparse) "dog" "cat" "cat" v' ∧ v 0 ≠ v' 0 := by
  obtain ⟨⟨v, h1⟩, v', h2⟩ := both_groupings ⟨.weighted (1 / 2) (1 / 2), none⟩ ⟨by decide, by decide, by decide, rfl, rfl⟩
    (Or.inr ⟨rfl, fun _ _ _ _ h => by cases h⟩)
  refine ⟨_, v, v', rfl, h1, h2, fun h => ?_⟩
  have := (C166_grouping_weights (1 / 2) (1 / 2) _ _ (animals_wf _) (by decide) rfl _ _ _ _ _ h1 h2 0 (by decide)).1 h
  have e1 : (animals .sparse).vecOf "dog" 0 = 0 := by
    show (animals .sparse).mat.val.get 0 0 = 0
    simp [animals, exMat, Mat.of_get]
  have e2 : (animals .sparse).vecOf "cat" 0 = 1 := by
    show (animals .sparse).mat.val.get 1 0 = 1
    simp [animals, exMat, Mat.of_get]
  rw [e1, e2] at this
  norm_num at this

/-- A model built from two matrices: its phrases cannot be combined with the words again. -/
example : ∃ (c c1 : Composer String) (r : Space String),
    newFullAdditive ⟨.dense, Mat.of 3 3 (fun _ _ => 1)⟩ ⟨.dense, Mat.of 3 3 (fun _ _ => 1)⟩ = .ok c ∧
    c.compose shortOnes (.one (animals .sparse)) = (c1, .ok r) ∧ r.id2row = ["dog_cat", "cat_cat"] ∧
    c1.compose [("dog_cat", "cat", "long")] (.tuple [r, animals .sparse]) = (c1, .error .valueError) := by
  obtain ⟨c, r, h0, h1, h2, -⟩ := C43_given_matrices ⟨.dense, Mat.of 3 3 (fun _ _ => 1)⟩ ⟨.dense, Mat.of 3 3 (fun _ _ => 1)⟩
    shortOnes (.one (animals .sparse)) _ _ ((extract_iff _ _ _).2 (Or.inl ⟨rfl, rfl⟩)) (animals_wf _) (animals_wf _) (by decide) (by decide)
    rfl rfl rfl (by decide) (by rw [short_known]; simp [shortOnes]) (by rw [short_known]; decide)
  refine ⟨c, _, r, h0, Prod.ext rfl h1, by rw [h2, short_known]; rfl, ?_⟩
  exact (C166_refuted _ _ c _ _ (animals .sparse) r shortOnes _ h0 (Prod.ext rfl h1) (by decide)).2.1

/-- A function that adds one to the sum of the components, for each of the three components. -/
def bigFun : Space String where
  mat := ⟨.dense, Mat.of 1 12 (fun _ _ => 1)⟩
  id2row := ["big"]
  id2col := []
  row2id := ⟨[("big", 0)], by simp⟩
  col2id := ⟨[], by simp⟩
  ops := []
  elemShape := [3, 4]

theorem bigFun_wf : bigFun.WF := by
  obtain ⟨s, hs⟩ : ∃ s, Space.new (κ := String) ⟨.dense, Mat.of 1 12 (fun _ _ => 1)⟩ ["big"] [] none none [] (some [3, 4]) = .ok s := ⟨_, rfl⟩
  have e : s = bigFun := by
    have := hs.symm
    exact ok_inj this
  rw [← e]
  exact (Space.new_eq_ok hs).2.2.2.2.2.2.2

/-- `big (big dog)`: every component is `1 + 3 * (1 + 0 + 2 + 4)`. -/
example : ∃ r r2, (LexFun.ofSpace bigFun true).compose [("big", "dog", "big_dog")] (animals .sparse) = .ok r ∧
    (LexFun.ofSpace bigFun true).compose [("big", "big_dog", "big_big_dog")] r = .ok r2 ∧ r2.vecOf "big_big_dog" 0 = 22 := by
  have k1 : knownTriples bigFun (animals .sparse) [("big", "dog", "big_dog")] = [("big", "dog", "big_dog")] := by decide
  obtain ⟨r, h1, -, h2⟩ := C166_lexical (LexFun.ofSpace bigFun true) bigFun (animals .sparse) [("big", "dog", "big_dog")]
    [("big", "big_dog", "big_big_dog")] rfl bigFun_wf (animals_wf _) (by decide) rfl (by simp [LexFun.ofSpace]) (by simp [LexFun.ofSpace])
    (by rw [k1]; simp) (by rw [k1]; simp)
  have hr : r.id2row = ["big_dog"] := by
    obtain ⟨r', h1', -, h3', -⟩ := C45_compose (LexFun.ofSpace bigFun true) bigFun (animals .sparse) [("big", "dog", "big_dog")] [3] rfl
      bigFun_wf (animals_wf _) (by simp) (by decide) (by decide) rfl (by simp [LexFun.ofSpace]) (by simp [LexFun.ofSpace])
      (by rw [k1]; simp) (by rw [k1]; simp)
    rw [h1] at h1'
    obtain rfl := ok_inj h1'
    rw [h3', k1]; rfl
  have k2 : knownTriples bigFun r [("big", "big_dog", "big_big_dog")] = [("big", "big_dog", "big_big_dog")] := by
    unfold knownTriples; rw [hr]; decide
  obtain ⟨r2, g1, -, g3⟩ := h2 (by rw [k2]; simp) (by rw [k2]; simp)
  refine ⟨r, r2, h1, g1, ?_⟩
  rw [(g3 "big" "dog" "big_dog" "big" "big_big_dog" (by simp) (by decide) (by decide) (by simp) (by decide)).2 0 (by decide)]
  have e1 : bigFun.vecOf "big" = bigFun.mat.val.get 0 := rfl
  have e2 : (animals .sparse).vecOf "dog" = (animals .sparse).mat.val.get 0 := rfl
  have e3 : (animals .sparse).mat.nc = 3 := rfl
  rw [e1, e2, e3]
  simp only [lexVec, LexFun.ofSpace, Finset.sum_range_succ, Finset.sum_range_zero]
  simp [bigFun, animals, exMat, Mat.of_get]
  norm_num

end Examples
end
end Dissect
