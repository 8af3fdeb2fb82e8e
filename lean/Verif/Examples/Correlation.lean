import Verif.Examples.Scripts
import Verif.Props.Correlation

/-! # Concrete cases for C140 -/

namespace Dissect.Examples
noncomputable section

/-- A `scipy.stats` that computes the two coefficients. -/
def exactStats : StatsLib := ⟨fun x y => .ok (pearsonR x y), fun x y => .ok (pearsonR (ranks x) (ranks y))⟩

theorem exactStats_correct : exactStats.Correct := ⟨fun _ _ _ _ _ => rfl, fun _ _ _ _ _ => rfl⟩

/-- Gold scores. -/
def golds : List ℝ := [1, 2, 3]
/-- Predictions in the same order. -/
def preds : List ℝ := [2, 4, 9]

theorem golds_vary : Varies golds := ⟨1, by simp [golds], 2, by simp [golds], by norm_num⟩
theorem preds_vary : Varies preds := ⟨2, by simp [preds], 4, by simp [preds], by norm_num⟩

theorem golds_preds : golds.length = preds.length := rfl

example : ∃ r, score exactStats golds preds cs!"pearson" = .ok r ∧ -1 ≤ r ∧ r ≤ 1 :=
  C140_range exactStats_correct golds_preds golds_vary preds_vary _ (by decide)

example : score exactStats golds preds cs!"pearson" = score exactStats preds golds cs!"pearson" :=
  C140_symmetric exactStats_correct golds_preds golds_vary preds_vary _ (by decide)

/-- The predictions order the items as the gold scores do, … -/
example : score exactStats golds preds cs!"spearman" = .ok 1 := by
  rw [C140_spearman_perfect exactStats_correct golds_preds golds_vary preds_vary]
  simp only [golds, preds, List.zip_cons_cons, List.zip_nil_right, List.mem_cons, List.not_mem_nil, or_false]
  rintro p (rfl | rfl | rfl) q (rfl | rfl | rfl) <;> norm_num

/-- … but not on a linear scale. -/
example : score exactStats golds preds cs!"pearson" ≠ .ok 1 := by
  rw [Ne, C140_pearson_perfect exactStats_correct golds_preds golds_vary preds_vary]
  rintro ⟨a, b, _, h⟩
  simp only [golds, preds, List.map_cons, List.map_nil, List.cons.injEq, and_true] at h
  obtain ⟨h1, h2, h3⟩ := h
  linarith

example : score exactStats golds (preds.map (fun t => 10 * t + 7)) cs!"pearson" = score exactStats golds preds cs!"pearson" :=
  (C140_pearson_scale exactStats_correct golds_preds golds_vary preds_vary 10 7).1 (by norm_num)

example : score exactStats golds (preds.map (fun t => t ^ 3)) cs!"spearman" = score exactStats golds preds cs!"spearman" :=
  (C140_spearman_scale exactStats_correct golds_preds golds_vary preds_vary _).1 (Odd.strictMono_pow ⟨1, rfl⟩)

example (m : Str) : score exactStats golds preds m = score exactStats [2, 1, 3] [4, 2, 9] m :=
  C140_order (x := golds) (y := preds) (x' := [2, 1, 3]) (y' := [4, 2, 9]) exactStats_correct golds_preds rfl (by exact .swap _ _ _) golds_vary preds_vary m

/-- Two files with the same lines in another order. -/
def pairFs : Fs := { cwd := [], dirs := [[]], files := (Dict.empty.set [cs!"a"] cs!"1 dog 2\n0 cat 1\n").set [cs!"b"] cs!"0 cat 1\n\n1 dog 2\n" }

theorem exact_run : evaluateSim { demo with stats := exactStats } pairFs cs!"/a" [cs!"1", cs!"3"] [cs!"pearson"] =
    .ok [(cs!"pearson", pearsonR [((1 : ℕ) : ℝ), ((0 : ℕ) : ℝ)] [((2 : ℕ) : ℝ), ((1 : ℕ) : ℝ)])] :=
  (C83_scores one_col three_col).2 ⟨cs!"1 dog 2\n0 cat 1\n", [((1 : ℕ) : ℝ), ((0 : ℕ) : ℝ)], [((2 : ℕ) : ℝ), ((1 : ℕ) : ℝ)], rfl,
    by rw [gold_records]; exact gold_first, by rw [gold_records]; exact gold_third, .cons ⟨rfl, rfl⟩ .nil⟩

theorem numbers_unique {io : NumIO} {i : ℕ} {l : List (List Str)} {x y : List ℝ} (h1 : List.Forall₂ (NumberIn io i) l x)
    (h2 : List.Forall₂ (NumberIn io i) l y) : x = y := by
  induction h1 generalizing y with
  | nil => cases h2; rfl
  | cons h _ ih =>
    cases h2 with
    | cons h' t =>
      obtain ⟨w, a, b⟩ := h
      obtain ⟨w', a', b'⟩ := h'
      rw [a] at a'
      injection a' with e
      subst e
      rw [b] at b'
      injection b' with e
      rw [e, ih t]

example : evaluateSim { demo with stats := exactStats } pairFs cs!"/b" [cs!"1", cs!"3"] [cs!"pearson"] =
    .ok [(cs!"pearson", pearsonR [((1 : ℕ) : ℝ), ((0 : ℕ) : ℝ)] [((2 : ℕ) : ℝ), ((1 : ℕ) : ℝ)])] := by
  refine C140_line_order (L := { demo with stats := exactStats }) (i := 0) (j := 2) exactStats_correct one_col three_col
    (content := cs!"1 dog 2\n0 cat 1\n") (content' := cs!"0 cat 1\n\n1 dog 2\n") rfl rfl (.swap _ _ _) ?_ ?_ exact_run
  · intro xs h
    rw [gold_records] at h
    rw [numbers_unique h gold_first]
    exact ⟨_, .head _, _, .tail _ (.head _), by norm_num⟩
  · intro xs h
    rw [gold_records] at h
    rw [numbers_unique h gold_third]
    exact ⟨_, .head _, _, .tail _ (.head _), by norm_num⟩

end
end Dissect.Examples
