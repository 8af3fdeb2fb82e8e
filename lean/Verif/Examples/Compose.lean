import Verif.Examples.Objects
import Verif.Props.ComposeMore
import Verif.Props.Lexical
import Mathlib.Tactic.IntervalCases

/-! # The composition theorems applied to two concrete argument spaces -/

namespace Dissect
noncomputable section
namespace Examples

/-- Two phrases whose words are known, and one whose noun is not. -/
def phrases : List (Triple String) := [("red", "horse", "red_horse"), ("red", "dog", "red_dog"), ("big", "cat", "big_cat")]

/-- Dense adjectives, sparse nouns. -/
def pair : ArgSpace String := .tuple [adjectives .dense, animals .sparse]

theorem pair_extract : pair.extract = .ok (adjectives .dense, animals .sparse) :=
  (extract_iff _ _ _).2 (Or.inr ⟨rfl, rfl⟩)

theorem phrases_known : knownTriples (adjectives .dense) (animals .sparse) phrases =
    [("red", "dog", "red_dog"), ("big", "cat", "big_cat")] := by decide

theorem phrases_ne : knownTriples (adjectives .dense) (animals .sparse) phrases ≠ [] := by rw [phrases_known]; simp

theorem phrases_nodup : ((knownTriples (adjectives .dense) (animals .sparse) phrases).map (·.2.2)).Nodup := by
  rw [phrases_known]; decide

theorem red : (adjectives .dense).HasWord 0 "red" := rfl
theorem dog : (animals .sparse).HasWord 0 "dog" := rfl

/-- `red` = (0, 1, 1), `dog` = (0, 2, 4): the third component of the multiplicative composition is 4. -/
example : ∃ r, ((newMultiplicative : Composer String).compose phrases pair).2 = .ok r ∧
    r.id2row = ["red_dog", "big_cat"] ∧ r.mat.val.get 0 2 = 4 := by
  obtain ⟨r, h1, h2, h3⟩ := C42_multiplicative phrases pair _ _ pair_extract (adjectives_wf _) (animals_wf _) rfl (by decide)
    phrases_ne phrases_nodup
  refine ⟨r, h1, by rw [h2, phrases_known]; rfl, ?_⟩
  rw [h3 0 "red" "dog" "red_dog" 0 0 (by rw [phrases_known]; rfl) red dog 2 (by decide)]
  simp [adjectives, animals, exMat, Mat.of_get]
  norm_num

/-- `2 * red + 3 * dog` has third component 14. -/
example : ∃ c r, newWeighted (.num 2) (.num 3) = .ok c ∧ (c.compose phrases pair).2 = .ok r ∧
    r.mat.val.get 0 2 = 14 := by
  obtain ⟨c, r, h0, h1, h2, h3⟩ := C40_weighted 2 3 phrases pair _ _ pair_extract (adjectives_wf _) (animals_wf _) rfl
    (by decide) phrases_ne phrases_nodup
  refine ⟨c, r, h0, h1, ?_⟩
  rw [h3 0 "red" "dog" "red_dog" 0 0 (by rw [phrases_known]; rfl) red dog 2 (by decide)]
  simp [adjectives, animals, exMat, Mat.of_get]
  norm_num

/-- Dilation with `lambda = 2`: `(red·red) dog + (red·dog) red` has third component `2*4 + 6*1`. -/
example : ∃ c r, newDilation (.num 2) = .ok c ∧ (c.compose phrases pair).2 = .ok r ∧ r.mat.val.get 0 2 = 14 := by
  obtain ⟨c, r, h0, h1, h2, h3⟩ := C41_dilation 2 phrases pair _ _ pair_extract (adjectives_wf _) (animals_wf _) rfl
    (by decide) phrases_ne phrases_nodup
  refine ⟨c, r, h0, h1, ?_⟩
  rw [h3 0 "red" "dog" "red_dog" 0 0 (by rw [phrases_known]; rfl) red dog 2 (by decide)]
  have : (adjectives .dense).mat.nc = 3 := rfl
  rw [this]
  simp only [Finset.sum_range_succ, Finset.sum_range_zero]
  simp [adjectives, animals, exMat, Mat.of_get]
  norm_num

/-- A one-row `A` and `B` of ones: the sum of all components, `2 + 6`. -/
example : ∃ c r, newFullAdditive (κ := String) ⟨.dense, Mat.of 1 3 (fun _ _ => 1)⟩ ⟨.dense, Mat.of 1 3 (fun _ _ => 1)⟩ = .ok c ∧
    (c.compose phrases pair).2 = .ok r ∧ r.mat.nc = 1 ∧ r.mat.val.get 0 0 = 8 := by
  obtain ⟨c, r, h0, h1, -, -, h4, h5⟩ := C43_given_matrices ⟨.dense, Mat.of 1 3 (fun _ _ => 1)⟩
    ⟨.dense, Mat.of 1 3 (fun _ _ => 1)⟩ phrases pair _ _ pair_extract (adjectives_wf _) (animals_wf _) (by decide) (by decide)
    rfl rfl rfl (by decide) phrases_ne phrases_nodup
  refine ⟨c, r, h0, h1, h4, ?_⟩
  rw [h5 0 "red" "dog" "red_dog" 0 0 (by rw [phrases_known]; rfl) red dog 0 (by decide)]
  have : (⟨.dense, Mat.of 1 3 (fun _ _ => 1)⟩ : TMat ℝ).nc = 3 := rfl
  rw [this]
  simp only [Finset.sum_range_succ, Finset.sum_range_zero]
  simp [adjectives, animals, exMat, Mat.of_get]
  norm_num

example := C43_intercept ⟨.dense, Mat.of 3 1 (fun _ _ => 1)⟩ ⟨.dense, Mat.of 4 1 (fun i _ => i)⟩ none [] phrases pair _ _
  pair_extract (adjectives_wf _) (animals_wf _) (by decide) (by decide) rfl rfl rfl (by decide) ⟨by simp, by simp⟩ phrases_ne
  phrases_nodup

/-! ## C38, C39: which triples are used -/

example : (newMultiplicative : Composer String).compose [("red", "horse", "red_horse")] pair =
    (newMultiplicative, .error .valueError) :=
  C38_no_known_triple _ _ pair _ _ pair_extract (adjectives_wf _) (animals_wf _) (by simp) (by decide)

example : ((newMultiplicative : Composer String).compose [("red", "dog", "p"), ("big", "cat", "p")] pair).2 =
    .error .valueError :=
  C38_duplicate_phrase _ _ pair _ _ 3 pair_extract (adjectives_wf _) (animals_wf _)
    ⟨by decide, by decide, by decide, rfl, rfl⟩ (by decide)

example : (newMultiplicative : Composer String).compose phrases (.tuple [adjectives .dense]) =
    (newMultiplicative, .error .valueError) := C38_bad_spaces _ _ _ (Or.inl (by decide))

theorem compose_ok : ∃ r, ((newMultiplicative : Composer String).compose phrases pair).2 = .ok r := by
  obtain ⟨r, h, -⟩ := C42_multiplicative phrases pair _ _ pair_extract (adjectives_wf _) (animals_wf _) rfl (by decide)
    phrases_ne phrases_nodup
  exact ⟨r, h⟩

example : ∃ r, ((newMultiplicative : Composer String).compose phrases pair).2 = .ok r ∧ r.id2col = ["a", "b", "c"] := by
  obtain ⟨r, h⟩ := compose_ok
  exact ⟨r, h, (C38_columns _ _ pair _ _ r pair_extract h).2.1 rfl (by intro A B i l h; cases h)⟩

example (env : Env) : (⟨.dilation 2, none⟩ : Composer String).train env [("red", "dog", "blue_dog")] pair (animals .dense) =
    .error .valueError :=
  (C39_partial env ⟨.dilation 2, none⟩ [("red", "dog", "blue_dog")] pair _ _ (animals .dense) pair_extract (adjectives_wf _)
    (animals_wf _) (animals_wf _) (by simp)).2 (by simp) (by decide)

/-- Vectors of two components for the adjectives, of three for the nouns, and no column labels in either. -/
def narrow : Space String where
  mat := ⟨.dense, Mat.of 2 2 (fun _ _ => 1)⟩
  id2row := ["red", "big"]
  id2col := []
  row2id := ⟨[("red", 0), ("big", 1)], by simp⟩
  col2id := Dict.empty
  ops := []
  elemShape := [2]

def wide : Space String where
  mat := ⟨.dense, Mat.of 2 3 (fun _ _ => 1)⟩
  id2row := ["dog", "cat"]
  id2col := []
  row2id := ⟨[("dog", 0), ("cat", 1)], by simp⟩
  col2id := Dict.empty
  ops := []
  elemShape := [3]

theorem narrow_new : Space.new narrow.mat ["red", "big"] [] none none [] none = .ok narrow := rfl
theorem wide_new : Space.new wide.mat ["dog", "cat"] [] none none [] none = .ok wide := rfl

example : (newMultiplicative : Composer String).compose phrases (.tuple [narrow, wide]) =
    (newMultiplicative, .error .valueError) :=
  C42_width_mismatch newMultiplicative (Or.inl rfl) phrases _ _ _ ((extract_iff _ _ _).2 (Or.inr ⟨rfl, rfl⟩))
    (C01_result _ _ _ _ _ _ _ _ narrow_new).1 (C01_result _ _ _ _ _ _ _ _ wide_new).1
    (by decide) (by decide) (by decide) (fun h => absurd (congrArg List.length h) (by decide))

/-! ## C50, C115, C116 -/

/-- The columns cached by the first call are the same in the second call. -/
example : (((newMultiplicative : Composer String).history [(phrases, pair)]).compose phrases pair).2 =
    ((newMultiplicative : Composer String).compose phrases pair).2 := by
  refine C50_partial _ _ _ _ (Or.inr (Or.inr ⟨["a", "b", "c"], ?_⟩))
  rintro a ha s1 s2 hx
  have : a = pair := by
    rcases ha with h | ⟨d, h⟩
    · exact h
    · simp at h
      exact h.2
  subst this
  rw [pair_extract] at hx
  injection hx with hx
  injection hx with hx _
  subst hx
  rfl

theorem mult_fits : (newMultiplicative : Composer String).model.Fits (adjectives .dense).mat.nc (animals .sparse).mat.nc 3 :=
  ⟨by decide, by decide, by decide, rfl, rfl⟩

example : ∃ r r', ((newMultiplicative : Composer String).compose phrases pair).2 = .ok r ∧
    ((newMultiplicative : Composer String).compose [("big", "cat", "big_cat")] pair).2 = .ok r' ∧
    ∀ j < 3, r.vecOf "big_cat" j = r'.vecOf "big_cat" j := by
  obtain ⟨r, h⟩ := compose_ok
  have hk : knownTriples (adjectives .dense) (animals .sparse) [("big", "cat", "big_cat")] = [("big", "cat", "big_cat")] := by
    decide
  obtain ⟨r', h', -⟩ := C38_compose (newMultiplicative : Composer String) [("big", "cat", "big_cat")] pair _ _ 3 pair_extract
    (adjectives_wf _) (animals_wf _) mult_fits (by intro _ h; cases h) (by rw [hk]; simp) (by rw [hk]; simp)
  exact ⟨r, r', h, h', (C115_own_triple _ _ rfl _ _ pair _ _ r r' 3 pair_extract (adjectives_wf _) (animals_wf _) mult_fits
    (by intro _ h; cases h) (by intro _ h; cases h) h h' ("big", "cat", "big_cat") (by simp [phrases]) (by simp) (by decide)
    (by decide)).2.2⟩

example : ∃ r r1 r2, ((newMultiplicative : Composer String).compose phrases pair).2 = .ok r ∧
    ((newMultiplicative : Composer String).compose [("red", "horse", "red_horse"), ("red", "dog", "red_dog")] pair).2 = .ok r1 ∧
    ((newMultiplicative : Composer String).compose [("big", "cat", "big_cat")] pair).2 = .ok r2 ∧
    r.id2row = r1.id2row ++ r2.id2row := by
  obtain ⟨r, h⟩ := compose_ok
  obtain ⟨r1, r2, h1, h2, h3, -⟩ := C115_two_parts _ [("red", "horse", "red_horse"), ("red", "dog", "red_dog")]
    [("big", "cat", "big_cat")] pair _ _ r 3 pair_extract (adjectives_wf _) (animals_wf _) mult_fits (by intro _ h; cases h) h
    ⟨("red", "dog", "red_dog"), by simp, by decide, by decide⟩ ⟨("big", "cat", "big_cat"), by simp, by decide, by decide⟩
  exact ⟨r, r1, r2, h, h1, h2, h3⟩

example : ∃ r r', ((newMultiplicative : Composer String).compose phrases pair).2 = .ok r ∧
    ((newMultiplicative : Composer String).compose (phrases.map swapTriple) (.tuple [animals .sparse, adjectives .dense])).2 =
      .ok r' ∧ r'.id2row = r.id2row := by
  obtain ⟨r, h⟩ := compose_ok
  obtain ⟨r', h1, h2, -⟩ := C116_symmetric newMultiplicative newMultiplicative (Or.inl ⟨rfl, rfl⟩) phrases _ _ r
    (adjectives_wf _) (animals_wf _) rfl (by decide) h
  exact ⟨r, r', h, h1, h2⟩

/-! ## C45, C115: lexical functions -/

/-- The function of the adjective `red`, a 2×4 matrix whose last column is an intercept: `[[0,1,2,3],[4,5,6,7]]`. -/
def redFun : Space String where
  mat := ⟨.dense, Mat.of 1 8 (fun _ j => (j : ℝ))⟩
  id2row := ["red"]
  id2col := []
  row2id := ⟨[("red", 0)], by simp⟩
  col2id := Dict.empty
  ops := []
  elemShape := [2, 4]

theorem redFun_wf : redFun.WF :=
  (C01_result _ _ _ none none [] (some [2, 4]) _ (by
    have : Space.new (⟨.dense, Mat.of 1 8 (fun _ j => (j : ℝ))⟩ : TMat ℝ) ["red"] [] none none [] (some [2, 4]) = .ok redFun := rfl
    exact this)).1

theorem redFun_known : knownTriples redFun (animals .sparse) phrases = [("red", "dog", "red_dog")] := by decide

/-- `[[0,1,2,3],[4,5,6,7]]` applied to `dog` = (0, 2, 4) with the intercept: `(13, 41)`. -/
example : ∃ r, (LexFun.ofSpace redFun true).compose phrases (animals .sparse) = .ok r ∧ r.id2row = ["red_dog"] ∧
    r.mat.val.get 0 0 = 13 ∧ r.mat.val.get 0 1 = 41 := by
  obtain ⟨r, h1, -, h3, -, -, h6⟩ := C45_compose (LexFun.ofSpace redFun true) redFun (animals .sparse) phrases [2] rfl redFun_wf
    (animals_wf _) (by simp) (by decide) (by decide) rfl (by simp [LexFun.ofSpace]) (by simp [LexFun.ofSpace])
    (by rw [redFun_known]; simp) (by rw [redFun_known]; simp)
  have key : ∀ j < 2, lexVec 3 true (redFun.vecOf "red") ((animals .sparse).vecOf "dog") j =
      if j = 0 then 13 else 41 := by
    intro j hj
    have e1 : redFun.vecOf "red" = redFun.mat.val.get 0 := rfl
    have e2 : (animals .sparse).vecOf "dog" = (animals .sparse).mat.val.get 0 := rfl
    unfold lexVec
    rw [e1, e2]
    simp only [Finset.sum_range_succ, Finset.sum_range_zero]
    interval_cases j
    · simp [redFun, animals, exMat, Mat.of_get]; norm_num
    · simp [redFun, animals, exMat, Mat.of_get]; norm_num
  have h := h6 0 "red" "dog" "red_dog" (by rw [redFun_known]; rfl)
  refine ⟨r, h1, by rw [h3, redFun_known]; rfl, ?_, ?_⟩
  · rw [h 0 (by decide)]
    exact key 0 (by decide)
  · rw [h 1 (by decide)]
    exact key 1 (by decide)

example : (LexFun.ofSpace redFun true).compose [("big", "dog", "big_dog")] (animals .sparse) = .error .valueError :=
  C45_no_known_triple _ redFun _ _ rfl redFun_wf (animals_wf _) (by simp) (by decide)

example (l : Learner) : (LexFun.ofLearner l).compose phrases (animals .sparse) = .error .attributeError :=
  C45_untrained _ _ _ rfl

example : ∃ r r', (LexFun.ofSpace redFun true).compose phrases (animals .sparse) = .ok r ∧
    (LexFun.ofSpace redFun true).compose [("red", "cat", "red_cat"), ("red", "dog", "red_dog")] (animals .sparse) = .ok r' ∧
    ∀ j < 2, r.vecOf "red_dog" j = r'.vecOf "red_dog" j := by
  have hk : knownTriples redFun (animals .sparse) [("red", "cat", "red_cat"), ("red", "dog", "red_dog")] =
      [("red", "cat", "red_cat"), ("red", "dog", "red_dog")] := by decide
  obtain ⟨r, h1, -⟩ := C45_compose (LexFun.ofSpace redFun true) redFun (animals .sparse) phrases [2] rfl redFun_wf
    (animals_wf _) (by simp) (by decide) (by decide) rfl (by simp [LexFun.ofSpace]) (by simp [LexFun.ofSpace])
    (by rw [redFun_known]; simp) (by rw [redFun_known]; simp)
  obtain ⟨r', h2, -⟩ := C45_compose (LexFun.ofSpace redFun true) redFun (animals .sparse)
    [("red", "cat", "red_cat"), ("red", "dog", "red_dog")] [2] rfl redFun_wf
    (animals_wf _) (by simp) (by decide) (by decide) rfl (by simp [LexFun.ofSpace]) (by simp [LexFun.ofSpace])
    (by rw [hk]; simp) (by rw [hk]; decide)
  exact ⟨r, r', h1, h2, (C115_lexical (LexFun.ofSpace redFun true) redFun (animals .sparse) r r' _ _ [2] rfl redFun_wf
    (animals_wf _) (by simp) (by decide) (by decide) rfl (by simp [LexFun.ofSpace]) (by simp [LexFun.ofSpace]) h1 h2
    ("red", "dog", "red_dog") (by simp [phrases]) (by simp) (by decide) (by decide)).2.2⟩

example (l : Learner) : (newFullAdditiveLearner l : Composer String).compose phrases pair =
    (newFullAdditiveLearner l, .error .typeError) :=
  C43_untrained l phrases pair _ _ pair_extract (adjectives_wf _) (animals_wf _) (by decide) (by decide) phrases_ne

end Examples
end
end Dissect
