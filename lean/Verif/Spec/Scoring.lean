import Mathlib.Data.Real.Basic

/-! # Specification: area under the ROC curve, balanced partitions -/

namespace Dissect

/-- The scores of the positive (gold 1) items. -/
noncomputable def posScores (gold prediction : List ℝ) : List ℝ :=
  ((gold.zip prediction).filter (fun p => decide (p.1 = 1))).map Prod.snd

/-- The scores of the negative (gold 0) items. -/
noncomputable def negScores (gold prediction : List ℝ) : List ℝ :=
  ((gold.zip prediction).filter (fun p => decide (p.1 = 0))).map Prod.snd

/-- The average of `w` over all (negative, positive) pairs. -/
noncomputable def pairAverage (w : ℝ → ℝ → ℝ) (neg pos : List ℝ) : ℝ :=
  (neg.map (fun n => (pos.map (fun p => w n p)).sum)).sum / ((neg.length : ℝ) * (pos.length : ℝ))

/-- A pair counts 1 when the positive has the higher score, one half when the scores are equal. -/
noncomputable def halfTies (n p : ℝ) : ℝ := if n < p then 1 else if n = p then 1 / 2 else 0

/-- A pair counts 1 when the positive does not have the lower score. -/
noncomputable def fullTies (n p : ℝ) : ℝ := if n ≤ p then 1 else 0

/-- The fold lists partition `0 .. n-1`: together they contain every number exactly once. -/
def IsPartition (n : ℕ) (folds : List (List ℕ)) : Prop := folds.flatten.Perm (List.range n)

/-- Lengths differ by at most one. -/
def Balanced (folds : List (List ℕ)) : Prop := ∀ a ∈ folds, ∀ b ∈ folds, a.length ≤ b.length + 1

end Dissect
