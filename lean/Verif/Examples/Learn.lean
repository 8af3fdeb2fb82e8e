import Verif.Props.IdealTrain
import Verif.Props.TrainOrder
import Verif.Props.Repeat
import Verif.Props.RidgePath
import Verif.Props.RidgeZero
import Verif.Props.Ctor
import Verif.Props.Nmf

/-! # The training theorems applied to a concrete space and an ideal numerical library -/

namespace Dissect
noncomputable section
namespace Examples

/-- Four words 0, 1, 2, 3 with the vectors (1), (2), (3), (4). -/
def count4 : Space ℕ := count4_ok.choose

theorem count4_wf : count4.WF := count4_ok.choose_spec.1
theorem count4_nc : count4.mat.nc = 1 := count4_ok.choose_spec.2.1
theorem count4_nr : count4.mat.nr = 4 := count4_ok.choose_spec.2.2.1
theorem count4_rows : count4.id2row = [0, 1, 2, 3] := count4_ok.choose_spec.2.2.2.1
theorem count4_shape : count4.elemShape = [1] := count4_ok.choose_spec.2.2.2.2.1
theorem count4_vec : ∀ w, w < 4 → count4.vecOf w 0 = (w : ℝ) + 1 := count4_ok.choose_spec.2.2.2.2.2
theorem count4_pos : 0 < count4.mat.nc := by rw [count4_nc]; omega
theorem count4_arg : (ArgSpace.one count4).extract = .ok (count4, count4) := (extract_iff _ _ _).2 (Or.inl ⟨rfl, rfl⟩)

/-- (1) and (2) give (4), (1) and (1) give (3); 7 is not a word. -/
def train4 : List (Triple ℕ) := [(0, 1, 3), (7, 1, 2), (0, 0, 2)]

theorem train4_used : trainTriples count4 count4 count4 train4 = [(0, 1, 3), (0, 0, 2)] := by
  unfold trainTriples; rw [count4_rows]; rfl
theorem train4_known : knownTriples count4 count4 train4 = [(0, 1, 3), (0, 0, 2)] := by
  unfold knownTriples; rw [count4_rows]; rfl
theorem train4_ne : trainTriples count4 count4 count4 train4 ≠ [] := by rw [train4_used]; simp
theorem train4_nodup : ((knownTriples count4 count4 train4).map (·.2.2)).Nodup := by rw [train4_known]; decide

theorem chunk4 (n : ℕ) : (count4.mat.nr / 15 + 1) ∣ n := by rw [count4_nr]; exact one_dvd _

/-- Permuted training data. -/
def train4' : List (Triple ℕ) := [(0, 0, 2), (0, 1, 3), (7, 1, 2)]
theorem train4_perm : train4.Perm train4' := by decide

example := C131_weighted idealEnv idealEnv_ideal (⟨.weighted (1 / 2) (1 / 2), none⟩ : Composer ℕ) _ _ rfl train4 _ _ _ _ 1
  count4_arg count4_wf count4_wf count4_wf Nat.one_pos count4_nc count4_nc count4_nc train4_ne

/-- The trained weights are `2` and `1`: they fit both phrases. -/
example : ∃ a b, (⟨.weighted (1 / 2) (1 / 2), none⟩ : Composer ℕ).train idealEnv train4 (.one count4) count4 =
    .ok ⟨.weighted a b, some count4.id2col⟩ ∧ a = 2 ∧ b = 1 := by
  obtain ⟨P, hP, hpin⟩ := idealEnv_ideal.pinv (gram2 count4 count4 1 (trainTriples count4 count4 count4 train4))
  obtain ⟨a, b, ht, hmin⟩ := C48_whole_chunks_partial idealEnv (⟨.weighted (1 / 2) (1 / 2), none⟩ : Composer ℕ) _ _ rfl
    train4 _ _ _ _ 1 count4_arg count4_wf count4_wf count4_wf Nat.one_pos count4_nc count4_nc count4_nc train4_ne
    (chunk4 _) P hP hpin
  have h := hmin 2 1
  have v0 := count4_vec 0 (by omega)
  have v1 := count4_vec 1 (by omega)
  have v2 := count4_vec 2 (by omega)
  have v3 := count4_vec 3 (by omega)
  simp only [Nat.cast_zero, Nat.cast_one, Nat.cast_ofNat, zero_add] at v0 v1 v2 v3
  rw [train4_used] at h
  simp only [trainError, count4_nc, weightedVec, List.map_cons, List.map_nil, List.sum_cons, List.sum_nil, Finset.sum_range_one,
    v0, v1, v2, v3] at h
  have e1 : a + 2 * b - 4 = 0 := by
    have : (a + 2 * b - 4) ^ 2 ≤ 0 := by nlinarith [sq_nonneg (a * 1 + b * 1 - (2 + 1))]
    exact pow_eq_zero_iff two_ne_zero |>.1 (le_antisymm this (sq_nonneg _))
  have e2 : a + b - 3 = 0 := by
    have : (a + b - 3) ^ 2 ≤ 0 := by nlinarith [sq_nonneg (a * 1 + b * (1 + 1) - (3 + 1))]
    exact pow_eq_zero_iff two_ne_zero |>.1 (le_antisymm this (sq_nonneg _))
  exact ⟨a, b, ht, by linarith, by linarith⟩

example : ∃ P, idealEnv.npPinv (gram2 count4 count4 1 (usedSamples count4 (trainTriples count4 count4 count4 train4))) = .ok P ∧
    ∃ a b, (⟨.weighted (1 / 2) (1 / 2), none⟩ : Composer ℕ).train idealEnv train4 (.one count4) count4 =
      .ok ⟨.weighted a b, some count4.id2col⟩ := by
  obtain ⟨P, hP, hpin⟩ := idealEnv_ideal.pinv (gram2 count4 count4 1 (usedSamples count4 (trainTriples count4 count4 count4 train4)))
  obtain ⟨a, b, h, _⟩ := C48_used_partial idealEnv (⟨.weighted (1 / 2) (1 / 2), none⟩ : Composer ℕ) _ _ rfl train4 _ _ _ _ 1
    count4_arg count4_wf count4_wf count4_wf Nat.one_pos count4_nc count4_nc count4_nc train4_ne P hP hpin
  exact ⟨P, hP, a, b, h⟩

example := C49_dilation idealEnv (⟨.dilation 2, none⟩ : Composer ℕ) _ rfl train4 _ _ _ _ 1 count4_arg count4_wf count4_wf
  count4_wf Nat.one_pos count4_nc count4_nc count4_nc train4_ne

example := C114_dilation_partial idealEnv (⟨.dilation 2, none⟩ : Composer ℕ) _ rfl train4 train4' train4_perm _ _ _ _ 1
  count4_arg count4_wf count4_wf count4_wf Nat.one_pos count4_nc count4_nc count4_nc

example := C114_weighted_partial idealEnv (⟨.weighted 1 1, none⟩ : Composer ℕ) _ _ rfl train4 train4' train4_perm _ _ _ _ 1
  count4_arg count4_wf count4_wf count4_wf Nat.one_pos count4_nc count4_nc count4_nc (chunk4 _)

/-- The default full additive model. -/
def full4 : Composer ℕ := newFullAdditiveLearner (.lstsq true)

theorem built_lstsq (ic : Bool) : (Learner.lstsq ic).Built := Or.inl ⟨ic, rfl⟩

example := C131_full_additive idealEnv idealEnv_ideal full4 none none _ (.lstsq true) (built_lstsq _) rfl train4 _ _ _ _
  count4_arg count4_wf count4_wf count4_wf count4_pos count4_pos count4_pos train4_ne

example := C44_full_additive idealEnv full4 none none _ (.lstsq true) rfl train4 _ _ _ _
  count4_arg count4_wf count4_wf count4_wf count4_pos count4_pos count4_pos train4_ne

example : ∃ c : Composer ℕ, newFullAdditive ⟨.dense, Mat.of 2 4 (fun i j => (i : ℝ) + j)⟩
      ⟨.sparse, Mat.of 2 4 (fun _ _ => 1)⟩ = .ok c ∧
    c.train idealEnv train4 (.one count4) count4 = .error .attributeError :=
  ⟨_, rfl, C44_no_learner idealEnv ⟨.dense, Mat.of 2 4 (fun i j => (i : ℝ) + j)⟩
    ⟨.sparse, Mat.of 2 4 (fun _ _ => 1)⟩ _ rfl train4 _ _ _ _ count4_arg count4_wf count4_wf count4_wf count4_pos count4_pos
    count4_pos train4_ne⟩

example : ∃ c', full4.train idealEnv train4 (.one count4) count4 = .ok c' := by
  obtain ⟨P, hP, hpin⟩ := idealEnv_ideal.pinv
    (ridgeGram (design (pairRows count4 count4 (trainTriples count4 count4 count4 train4)) true) 0 false)
  obtain ⟨c', h, _⟩ := C44_lstsq_optimal idealEnv full4 none none _ true rfl train4 _ _ _ _
    count4_arg count4_wf count4_wf count4_wf count4_pos count4_pos count4_pos train4_ne _ _ rfl rfl
    (idealEnv_ideal.solves _ _) P hP hpin
  exact ⟨c', h⟩

example := C114_full_additive_partial idealEnv full4 none none _ (.lstsq true) rfl train4 train4' train4_perm _ _ _ _
  count4_arg count4_wf count4_wf count4_wf count4_pos count4_pos count4_pos
  (fun _ _ => Or.inr fun _ _ => idealEnv_ideal.lstsq _ _)

theorem train4_affine : Fitted count4 count4 count4 (trainTriples count4 count4 count4 train4)
    (affineVec count4.mat.nc count4.mat.nc (fun _ _ => 2) (fun _ _ => 1) (fun _ => 0)) := by
  rw [train4_used, count4_nc]
  intro t h j hj
  rw [count4_nc] at hj
  obtain rfl : j = 0 := by omega
  simp only [List.mem_cons, List.not_mem_nil, or_false] at h
  rcases h with rfl | rfl <;> simp [affineVec, dot, count4_vec] <;> norm_num

theorem train4_weighted : Fitted count4 count4 count4 (trainTriples count4 count4 count4 train4) (weightedVec 2 1) := by
  rw [train4_used]
  intro t h j hj
  rw [count4_nc] at hj
  obtain rfl : j = 0 := by omega
  simp only [List.mem_cons, List.not_mem_nil, or_false] at h
  rcases h with rfl | rfl <;> simp [weightedVec, count4_vec] <;> norm_num

/-- The full additive model gives back the training phrases. -/
example : ∃ c' r, full4.train idealEnv train4 (.one count4) count4 = .ok c' ∧
    (c'.compose train4 (.one count4)).2 = .ok r ∧ GivesBack count4 (knownTriples count4 count4 train4) r := by
  obtain ⟨P, hP, hpin⟩ := idealEnv_ideal.pinv
    (ridgeGram (design (pairRows count4 count4 (trainTriples count4 count4 count4 train4)) true) 0 false)
  exact C105_full_additive idealEnv full4 none none _ true rfl train4 _ _ _ _
    count4_arg count4_wf count4_wf count4_wf count4_pos count4_pos count4_pos train4_ne train4_nodup _ _ rfl rfl
    (idealEnv_ideal.solves _ _) P hP hpin _ _ _ (by simp) train4_affine

example : ∃ c' r, (⟨.weighted 1 1, none⟩ : Composer ℕ).train idealEnv train4 (.one count4) count4 = .ok c' ∧
    (c'.compose train4 (.one count4)).2 = .ok r ∧ GivesBack count4 (knownTriples count4 count4 train4) r := by
  obtain ⟨P, hP, hpin⟩ := idealEnv_ideal.pinv (gram2 count4 count4 1 (trainTriples count4 count4 count4 train4))
  exact C105_weighted idealEnv _ _ _ rfl train4 _ _ _ _ 1 count4_arg count4_wf count4_wf count4_wf Nat.one_pos
    count4_nc count4_nc count4_nc (by rw [count4_nr]; omega) train4_ne train4_nodup P hP hpin 2 1 train4_weighted

/-- Dilation: `(1)` and `(2)` give `(4)` with the factor 2. -/
example : ∃ c' r, (⟨.dilation 1, none⟩ : Composer ℕ).train idealEnv [(0, 1, 3)] (.one count4) count4 = .ok c' ∧
    (c'.compose [(0, 1, 3)] (.one count4)).2 = .ok r ∧ GivesBack count4 (knownTriples count4 count4 [(0, 1, 3)]) r := by
  have ht : trainTriples count4 count4 count4 [(0, 1, 3)] = [(0, 1, 3)] := by unfold trainTriples; rw [count4_rows]; rfl
  have hk : knownTriples count4 count4 [(0, 1, 3)] = [(0, 1, 3)] := by unfold knownTriples; rw [count4_rows]; rfl
  refine C105_dilation idealEnv _ _ rfl [(0, 1, 3)] _ _ _ _ 1 count4_arg count4_wf count4_wf count4_wf Nat.one_pos
    count4_nc count4_nc count4_nc (by rw [ht]; simp) (by rw [hk]; simp) 2 ?_
  rw [ht]
  intro t h j hj
  rw [List.mem_singleton] at h
  subst h
  rw [count4_nc] at hj
  obtain rfl : j = 0 := by omega
  simp [dilationVec, dot, count4_vec]
  norm_num

/-! ## Lexical functions -/

def natLe (a b : ℕ) : Bool := decide (a ≤ b)
theorem natLe_trans : ∀ a b c, natLe a b = true → natLe b c = true → natLe a c = true := by
  intro a b c h1 h2
  simp only [natLe, decide_eq_true_eq] at *
  omega
theorem natLe_total : ∀ a b, (natLe a b || natLe b a) = true := by
  intro a b
  simp only [natLe, Bool.or_eq_true, decide_eq_true_eq]
  omega
theorem natLe_anti : ∀ a b, natLe a b = true → natLe b a = true → a = b := by
  intro a b h1 h2
  simp only [natLe, decide_eq_true_eq] at *
  omega

/-- The function word 9 doubles its arguments (2 samples), 8 has one sample; 6 is not a word. -/
def lex4 : List (Triple ℕ) := [(9, 0, 1), (8, 0, 2), (9, 6, 3), (9, 1, 3)]
def lex4' : List (Triple ℕ) := [(9, 1, 3), (9, 0, 1), (8, 0, 2), (9, 6, 3)]

theorem lex4_samples (f : ℕ) : lexSamples count4 count4 lex4 f =
    if f = 9 then [(9, 0, 1), (9, 1, 3)] else if f = 8 then [(8, 0, 2)] else [] := by
  unfold lexSamples lex4
  rw [count4_rows]
  by_cases h9 : f = 9
  · subst h9; rfl
  · by_cases h8 : f = 8
    · subst h8; rfl
    · have e1 : ¬ 9 = f := fun h => h9 h.symm
      have e2 : ¬ 8 = f := fun h => h8 h.symm
      simp [h8, h9, e1, e2]

/-- At least two samples per word, least squares without intercept. -/
def lexModel (n : ℤ) : LexFun ℕ := ⟨.lstsq false, [], none, false, n⟩

theorem lex4_enough : ∃ f, (2 : ℤ) ≤ ((lexSamples count4 count4 lex4 f).length : ℤ) := ⟨9, by rw [lex4_samples]; decide⟩

theorem lex4_only (f : ℕ) (h : (2 : ℤ) ≤ ((lexSamples count4 count4 lex4 f).length : ℤ)) : f = 9 := by
  rw [lex4_samples] at h
  split at h
  · assumption
  · split at h <;> simp at h

theorem count4_shape' : count4.elemShape = [count4.mat.nc] := by rw [count4_shape, count4_nc]

example : ∃ m', (lexModel 2).train idealEnv natLe lex4 count4 count4 = .ok m' :=
  ((C131_lexical_iff idealEnv idealEnv_ideal natLe natLe_trans natLe_total natLe_anti (lexModel 2) (built_lstsq _) lex4 count4
    count4 count4_wf count4_wf (by simp [lex4]) count4_pos count4_pos count4_shape' (by decide)).1).2 lex4_enough

/-- No word has three samples. -/
example : (lexModel 3).train idealEnv natLe lex4 count4 count4 = .error .valueError := by
  refine C46_no_function idealEnv natLe natLe_trans natLe_total natLe_anti (lexModel 3) lex4 count4 count4 count4_wf count4_wf
    (by simp [lex4]) (by decide) ?_
  rintro ⟨f, h⟩
  rw [lex4_samples] at h
  split at h
  · revert h; decide
  · split at h <;> revert h <;> decide

example := C131_lexical_optimal idealEnv idealEnv_ideal natLe natLe_trans natLe_total natLe_anti (lexModel 2) (built_lstsq _) lex4
  count4 count4 count4_wf count4_wf count4_pos count4_pos count4_shape' (by decide) lex4_enough

/-- What the learner returns for the samples of a word. -/
theorem lex4_solution (f : ℕ) (hf : (2 : ℤ) ≤ ((lexSamples count4 count4 lex4 f).length : ℤ)) :
    ∃ X, (lexModel 2).learner.train idealEnv
        ⟨lexTy count4 count4, argRows count4 (lexSamples count4 count4 lex4 f)⟩
        ⟨lexTy count4 count4, phraseRows count4 (lexSamples count4 count4 lex4 f)⟩ = .ok X ∧ X.ty = lexTy count4 count4 ∧
      X.nr = (if (lexModel 2).learner.hasIntercept then count4.mat.nc + 1 else count4.mat.nc) ∧ X.nc = count4.mat.nc := by
  obtain ⟨X, e, e1, e2, e3, _⟩ := C131_learner idealEnv idealEnv_ideal (.lstsq false) (built_lstsq _)
    ⟨lexTy count4 count4, argRows count4 (lexSamples count4 count4 lex4 f)⟩
    ⟨lexTy count4 count4, phraseRows count4 (lexSamples count4 count4 lex4 f)⟩ rfl rfl
    (show 0 < (lexSamples count4 count4 lex4 f).length by omega) count4_pos count4_pos
  exact ⟨X, e, e1, e2, e3⟩

/-- The only learned function is that of the word 9. -/
example : ∃ m' fs, (lexModel 2).train idealEnv natLe lex4 count4 count4 = .ok m' ∧ m'.functions = some fs ∧
    ∀ f, f ∈ fs.id2row ↔ f = 9 := by
  have hX : ∀ f, ∃ X : TMat ℝ, (2 : ℤ) ≤ ((lexSamples count4 count4 lex4 f).length : ℤ) → _ := fun f => by
    by_cases hf : (2 : ℤ) ≤ ((lexSamples count4 count4 lex4 f).length : ℤ)
    · obtain ⟨X, h⟩ := lex4_solution f hf
      exact ⟨X, fun _ => h⟩
    · exact ⟨⟨.dense, zero2⟩, fun h => absurd h hf⟩
  choose X hX using hX
  obtain ⟨m', fs, h1, h2, _, _, _, _, h7, _⟩ := C46_train idealEnv natLe natLe_trans natLe_total natLe_anti (lexModel 2) lex4
    count4 count4 count4_wf count4_wf count4_pos count4_pos count4_shape' (by decide) lex4_enough X hX
  refine ⟨m', fs, h1, h2, fun f => (h7 f).trans ⟨lex4_only f, ?_⟩⟩
  rintro rfl
  rw [lex4_samples]
  decide

/-- Test data: the word 9 with a known argument, and with an unknown one; the word 8 was not learned. -/
def test4 : List (Triple ℕ) := [(9, 2, 30), (9, 5, 31), (8, 2, 32)]

theorem test4_known : test4.filter (fun t => decide
    ((2 : ℤ) ≤ ((lexSamples count4 count4 lex4 t.1).length : ℤ) ∧ t.2.1 ∈ count4.id2row)) = [(9, 2, 30)] := by
  simp only [lex4_samples, count4_rows]
  rfl

example : ∃ m' r, (lexModel 2).train idealEnv natLe lex4 count4 count4 = .ok m' ∧ m'.compose test4 count4 = .ok r ∧
    r.id2row = [30] := by
  have hX : ∀ f, ∃ X : TMat ℝ, (2 : ℤ) ≤ ((lexSamples count4 count4 lex4 f).length : ℤ) → _ := fun f => by
    by_cases hf : (2 : ℤ) ≤ ((lexSamples count4 count4 lex4 f).length : ℤ)
    · obtain ⟨X, h⟩ := lex4_solution f hf
      exact ⟨X, fun _ => h⟩
    · exact ⟨⟨.dense, zero2⟩, fun h => absurd h hf⟩
  choose X hX using hX
  obtain ⟨m', r, h1, h2, _, h4, _⟩ := C46_train_compose idealEnv natLe natLe_trans natLe_total natLe_anti (lexModel 2) lex4
    count4 count4 count4_wf count4_wf count4_pos count4_pos count4_shape' (by rw [count4_shape]; simp) (by decide) lex4_enough X hX
    test4 count4 count4_wf rfl [(9, 2, 30)] test4_known.symm (by simp) (by simp)
  exact ⟨m', r, h1, h2, h4⟩

/-- The function of the word 9 is doubling: the phrases of the training data are given back. -/
example : ∃ m' r, (lexModel 2).train idealEnv natLe lex4 count4 count4 = .ok m' ∧ m'.compose lex4 count4 = .ok r ∧
    GivesBack count4 [(9, 0, 1), (9, 1, 3)] r := by
  refine C105_lexical idealEnv natLe natLe_trans natLe_total natLe_anti (lexModel 2) false rfl lex4 count4 count4 count4_wf
    count4_wf count4_pos count4_pos count4_shape' (by rw [count4_shape]; simp) (by decide) lex4_enough
    (fun f _ => ⟨(idealEnv_ideal.solves _ _), idealEnv_ideal.pinv _⟩) _ ?_ (by decide) (fun _ _ _ => 2)
    (fun _ _ => 0) (fun _ _ _ => rfl) ?_
  · simp only [lex4_samples, count4_rows]
    rfl
  · intro f hf t ht j hj
    obtain rfl := lex4_only f hf
    rw [count4_nc] at hj ⊢
    obtain rfl : j = 0 := by omega
    rw [lex4_samples, if_pos rfl] at ht
    simp only [List.mem_cons, List.not_mem_nil, or_false] at ht
    rcases ht with rfl | rfl <;> simp [dot, count4_vec] <;> norm_num

example := C114_lexical_partial idealEnv natLe natLe_trans natLe_total natLe_anti (lexModel 2) lex4 lex4' (by decide) count4 count4
  count4_wf count4_wf count4_pos count4_pos (by decide) (fun _ _ _ _ _ _ _ => idealEnv_ideal.lstsq _ _)

/-! ## Repeated training data -/

example := C138_dilation_partial idealEnv (⟨.dilation 2, none⟩ : Composer ℕ) _ rfl train4 (k := 3) (by omega) _ _ _ _ 1
  count4_arg count4_wf count4_wf count4_wf Nat.one_pos count4_nc count4_nc count4_nc

example := C138_weighted_partial idealEnv idealEnv_ideal (⟨.weighted 1 1, none⟩ : Composer ℕ) _ _ rfl train4 (k := 3) (by omega)
  _ _ _ _ 1 count4_arg count4_wf count4_wf count4_wf Nat.one_pos count4_nc count4_nc count4_nc (chunk4 _)

example := C138_full_additive_partial idealEnv idealEnv_ideal full4 none none _ true rfl train4 (k := 3) (by omega) _ _ _ _
  count4_arg count4_wf count4_wf count4_wf count4_pos count4_pos count4_pos

/-- With the threshold 1 the words 8 and 9 are learned, also from the data repeated three times. -/
example : (lexModel 1).train idealEnv natLe (List.replicate 3 lex4).flatten count4 count4 =
      (lexModel 1).train idealEnv natLe lex4 count4 count4 ∧
    ∃ m', (lexModel 1).train idealEnv natLe lex4 count4 count4 = .ok m' := by
  refine ⟨C138_lexical_partial idealEnv idealEnv_ideal natLe natLe_trans natLe_total natLe_anti (lexModel 1) false rfl lex4
    (k := 3) (by omega) count4 count4 count4_wf count4_wf count4_pos count4_pos (by decide) ?_, ?_⟩
  · intro f hf
    show (1 : ℤ) ≤ _
    have : (1 : ℤ) ≤ 3 * _ := hf
    omega
  · exact ((C131_lexical_iff idealEnv idealEnv_ideal natLe natLe_trans natLe_total natLe_anti (lexModel 1) (built_lstsq _) lex4
      count4 count4 count4_wf count4_wf (by simp [lex4]) count4_pos count4_pos count4_shape' (by decide)).1).2
      ⟨9, by rw [lex4_samples]; decide⟩

example := C138_weighted_refuted idealEnv idealEnv_ideal
example := C138_lexical_refuted idealEnv idealEnv_ideal
example := C138_ridge_partial idealEnv idealEnv_ideal [1, 2, 5] (by simp) (k := 2) (by omega) .dense (n := 2) (m := 1) (by omega)
  (by omega) (fun (i : ℕ) j => (i : ℝ) + j) (fun i _ => (i : ℝ) ^ 2) (1 / 2) true [] []

/-! ## Regression -/

/-- Three samples, two inputs, one output. -/
def inputs (ty : MTy) : TMat ℝ := ⟨ty, Mat.of 3 2 (fun i j => (i : ℝ) + 2 * j)⟩
def outputs (ty : MTy) : TMat ℝ := ⟨ty, Mat.of 3 1 (fun i _ => (i : ℝ) ^ 2)⟩

example : ∃ x tr err, ridgeRegression idealEnv (inputs .dense) (outputs .dense) 3 true = .ok (x, tr, err) ∧ x.nr = 3 := by
  obtain ⟨P, hP, hpin⟩ := idealEnv_ideal.pinv (ridgeGram (inputs .dense).val 3 true)
  obtain ⟨x, tr, err, h, _, h2, _⟩ := C51_ridge idealEnv (inputs .dense) (outputs .dense) 3 true rfl rfl (by decide) (by decide)
    (by decide) (by norm_num) P hP hpin
  exact ⟨x, tr, err, h, h2⟩

example := C52_dense idealEnv (inputs .dense) (outputs .dense) true rfl rfl rfl (by decide) (by decide) (by decide)
  (idealEnv_ideal.solves _ _)

example : ∃ x, lstsqRegression idealEnv (inputs .sparse) (outputs .sparse) true = .ok x ∧ x.ty = .sparse := by
  obtain ⟨P, hP, hpin⟩ := idealEnv_ideal.pinv (ridgeGram (design (inputs .sparse).val true) 0 false)
  obtain ⟨x, h, h2, _⟩ := C52_sparse idealEnv (inputs .sparse) (outputs .sparse) true rfl rfl rfl (by decide) (by decide)
    (by decide) P hP hpin
  exact ⟨x, h, h2⟩

example : ∃ x y, lstsqRegression idealEnv (inputs .dense) (outputs .dense) true = .ok x ∧
    lstsqRegression idealEnv (inputs .sparse) (outputs .sparse) true = .ok y ∧
    sqResid (inputs .dense).val (outputs .dense).val x.val true = sqResid (inputs .dense).val (outputs .dense).val y.val true := by
  obtain ⟨P, hP, hpin⟩ := idealEnv_ideal.pinv (ridgeGram (design (inputs .sparse).val true) 0 false)
  exact C52_same_error idealEnv (inputs .dense) (outputs .dense) true rfl rfl rfl (by decide) (by decide) (by decide)
    (idealEnv_ideal.solves _ _) P hP hpin

theorem cv_train (ty : MTy) : ∃ x, (Learner.ridge true true lambdaGrid none).train idealEnv (inputs ty) (outputs ty) =
    .ok x :=
  C53_succeeds idealEnv (inputs ty) (outputs ty) true lambdaGrid none (fun p _ => by
    obtain ⟨x, tr, err, h, _⟩ := ridge_ideal idealEnv_ideal (inputs ty) (outputs ty) p true rfl rfl (show 0 < 3 by decide) (show 0 < 2 by decide)
      (show 0 < 1 by decide)
    exact ⟨_, h⟩)

/-- The default cross-validating learner takes one of its parameters (or 0). -/
example : ∃ x p tr err, (Learner.ridge true true lambdaGrid none).train idealEnv (inputs .dense) (outputs .dense) =
    .ok x ∧ FirstMin (ridgeScore idealEnv (inputs .dense) (outputs .dense) true) lambdaGrid p ∧
    ridgeRegression idealEnv (inputs .dense) (outputs .dense) p true = .ok (x, tr, err) := by
  obtain ⟨x, hx⟩ := cv_train .dense
  obtain ⟨p, tr, err, h1, h2⟩ := C53_first_minimiser idealEnv (inputs .dense) (outputs .dense) true lambdaGrid none x hx
  exact ⟨x, p, tr, err, hx, h1, h2⟩

theorem fixed_train (ty : MTy) (p : ℝ) : ∃ x, (Learner.ridge true false [] (some p)).train idealEnv (inputs ty) (outputs ty) =
    .ok x := by
  obtain ⟨x, tr, err, h, _⟩ := ridge_ideal idealEnv_ideal (inputs ty) (outputs ty) p true rfl rfl (show 0 < 3 by decide) (show 0 < 2 by decide)
    (show 0 < 1 by decide)
  exact ⟨x, by simp only [Learner.train]; rw [h]; rfl⟩

example : ∃ x y, (Learner.ridge true false [] (some 1)).train idealEnv (inputs .dense) (outputs .dense) = .ok x ∧
    (Learner.ridge true false [] (some 2)).train idealEnv (inputs .dense) (outputs .dense) = .ok y ∧
    sqPenalty (inputs .dense).val (outputs .dense).val y.val ≤ sqPenalty (inputs .dense).val (outputs .dense).val x.val := by
  obtain ⟨x, hx⟩ := fixed_train .dense 1
  obtain ⟨y, hy⟩ := fixed_train .dense 2
  exact ⟨x, y, hx, hy, (C119_larger_parameter idealEnv (inputs .dense) (outputs .dense) x y 1 2 true [] [] rfl rfl (by decide)
    (by decide) (by decide) (by norm_num) (by norm_num) (idealEnv_ideal.pinv _) (idealEnv_ideal.pinv _) hx hy).1⟩

example : ∃ x y, (Learner.ridge true false [] (some 0)).train idealEnv (inputs .sparse) (outputs .sparse) = .ok x ∧
    (Learner.lstsq true).train idealEnv (inputs .sparse) (outputs .sparse) = .ok y ∧
    sqResid (inputs .sparse).val (outputs .sparse).val x.val true = sqResid (inputs .sparse).val (outputs .sparse).val y.val true := by
  obtain ⟨x, hx⟩ := fixed_train .sparse 0
  obtain ⟨y, hy, _⟩ := C131_learner idealEnv idealEnv_ideal (.lstsq true) (built_lstsq _) (inputs .sparse) (outputs .sparse) rfl
    rfl (by decide) (by decide) (by decide)
  exact ⟨x, y, hx, hy, C119_zero_is_lstsq idealEnv (inputs .sparse) (outputs .sparse) x y true [] rfl rfl (by decide)
    (by decide) (by decide) (idealEnv_ideal.pinv _) (idealEnv_ideal.solves _ _) (idealEnv_ideal.pinv _) hx hy⟩

example : ∃ x, (Learner.ridge true false [] (some 2)).train idealEnv (inputs .dense) (outputs .dense) = .ok x ∧
    sqPenalty (inputs .dense).val (outputs .dense).val x.val ≤ sqPenalty (inputs .dense).val (outputs .dense).val x.val := by
  obtain ⟨x, hx⟩ := fixed_train .dense 2
  exact ⟨x, hx, C119_between idealEnv (inputs .dense) (outputs .dense) x 2 true [] rfl rfl (by decide)
    (by decide) (by decide) (by norm_num) (idealEnv_ideal.pinv _) hx x.val le_rfl⟩

example : ∃ x y, (Learner.ridge true false [] (some 2)).train idealEnv (inputs .dense) (outputs .dense) = .ok x ∧
    (Learner.lstsq true).train idealEnv (inputs .dense) (outputs .dense) = .ok y ∧
    sqResid (inputs .dense).val (outputs .dense).val y.val true ≤ sqResid (inputs .dense).val (outputs .dense).val x.val true := by
  obtain ⟨x, hx⟩ := fixed_train .dense 2
  obtain ⟨y, hy, _⟩ := C131_learner idealEnv idealEnv_ideal (.lstsq true) (built_lstsq _) (inputs .dense) (outputs .dense) rfl
    rfl (by decide) (by decide) (by decide)
  exact ⟨x, y, hx, hy, (C119_bounds idealEnv (inputs .dense) (outputs .dense) x y 2 true [] rfl rfl (by decide)
    (by decide) (by decide) (by norm_num) (idealEnv_ideal.pinv _) (idealEnv_ideal.solves _ _) (idealEnv_ideal.pinv _)
    hx hy).1⟩

/-! ## Non-negative factorization: one step -/

example : ∃ h, nlsSubprob ⟨.dense, Mat.of 2 3 (fun i j => (i + j : ℕ))⟩ ⟨.dense, Mat.of 2 2 (fun _ _ => 1)⟩
    ⟨.dense, (Mat.of 2 2 (fun _ _ => (1 : ℝ))).transpose⟩ ⟨.dense, Mat.of 2 3 (fun _ _ => 1)⟩ = .ok h ∧ NonNegative h.val := by
  obtain ⟨h, h1, h2, _⟩ := C23_half_iteration ⟨.dense, Mat.of 2 3 (fun i j => ((i + j : ℕ) : ℝ))⟩
    ⟨.dense, Mat.of 2 2 (fun _ _ => 1)⟩ ⟨.dense, (Mat.of 2 2 (fun _ _ => (1 : ℝ))).transpose⟩ ⟨.dense, Mat.of 2 3 (fun _ _ => 1)⟩
    (by decide) (by decide) (by decide) rfl rfl rfl rfl rfl (TMat.transpose_ok (by decide) (by decide)) (by
      intro i j hi hj
      simp only [Mat.of_get]; split <;> norm_num)
  exact ⟨h, h1, h2⟩

/-! ## Constructors -/

/-- `LexicalFunction(learner=RidgeRegressionLearner(param=1))`. -/
def kwLex : Kwargs ℕ := kw1 "learner" (.learner (.ridge true false [] (some 1)))

theorem kwLex_new : newLexical kwLex = .ok ⟨.learner (.ridge true false [] (some 1)), [], none, false, 1⟩ := rfl

example := C110_lexical_partial kwLex _ kwLex_new

example : newLexical (kw1 (κ := ℕ) "intercept" (.str "yes")) = .error .typeError := by
  refine (C110_lexical_refuses_partial _ ?_).2 ⟨_, rfl, by simp⟩
  rintro ⟨k, hk, hn⟩
  have : k ∈ ["intercept"] := hk
  simp only [List.mem_singleton] at this
  subst this
  simp at hn

example := C110_full_additive_partial (κ := ℕ) Dict.empty _ rfl

example := C111_train_partial idealEnv natLe kwLex _ _ count4 true kwLex_new rfl lex4 count4 count4

/-- Least squares and ridge regression with the parameter 0 train the same models. -/
example : ∃ c c', full4.train idealEnv train4 (.one count4) count4 = .ok c ∧
    (newFullAdditiveLearner (.ridge true false [] (some 0))).train idealEnv train4 (.one count4) count4 = .ok c' ∧
    ∀ data' args', (c.compose data' args').2 = (c'.compose data' args').2 := by
  obtain ⟨c0, h0, _⟩ := C131_full_additive idealEnv idealEnv_ideal full4 none none _ (.lstsq true) (built_lstsq _) rfl train4 _ _ _ _
    count4_arg count4_wf count4_wf count4_wf count4_pos count4_pos count4_pos train4_ne
  rcases C147_full_additive idealEnv idealEnv_ideal true (.ridge true false [] (some 0)) ⟨[], Or.inl rfl⟩ train4 _ _ _ _
    count4_arg count4_wf count4_wf count4_wf count4_pos count4_pos count4_pos with ⟨e, h, _⟩ | h
  · exact absurd (h0.symm.trans h) (by simp)
  · exact h

example := C147_lexical idealEnv idealEnv_ideal natLe natLe_trans natLe_total natLe_anti true (.ridge true true [0] none)
  ⟨[0], Or.inr ⟨none, rfl, by simp⟩⟩ lex4 count4 count4 count4_wf count4_wf count4_pos count4_pos 2 (by decide)

example := C147_dense_sparse idealEnv idealEnv_ideal (exMat .dense).val (exMat .dense).val true rfl
  (show 0 < 2 by omega) (show 0 < 3 by omega) (show 0 < 3 by omega)

end Examples
end
end Dissect
