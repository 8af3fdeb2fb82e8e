import Verif.Model.Scoring
import Mathlib.Analysis.SpecialFunctions.Pow.NNReal

/-! # Specification: the correlation coefficients of statistics textbooks -/

namespace Dissect
noncomputable section

/-- The arithmetic mean. -/
def mean (l : List ℝ) : ℝ := l.sum / (l.length : ℝ)

/-- The sum of products of deviations from the means. -/
def codeviation (x y : List ℝ) : ℝ := ((x.zip y).map (fun p => (p.1 - mean x) * (p.2 - mean y))).sum

/-- Pearson's product-moment correlation coefficient. -/
def pearsonR (x y : List ℝ) : ℝ := codeviation x y / Real.sqrt (codeviation x x * codeviation y y)

/-- Not all values are equal. -/
def Varies (l : List ℝ) : Prop := ∃ a ∈ l, ∃ b ∈ l, a ≠ b

/-- The rank of a value: one more than the number of smaller ones; equal values share the average of their ranks. -/
def rankIn (l : List ℝ) (x : ℝ) : ℝ :=
  ((l.filter (fun y => decide (y < x))).length : ℝ) + (((l.filter (fun y => decide (y = x))).length : ℝ) + 1) / 2

/-- The ranks of all values. -/
def ranks (l : List ℝ) : List ℝ := l.map (rankIn l)

/-- `scipy.stats` computes the coefficients: of lists of equal length in which not all values are equal. -/
structure StatsLib.Correct (lib : StatsLib) : Prop where
  pearson : ∀ x y, x.length = y.length → Varies x → Varies y → lib.pearson x y = .ok (pearsonR x y)
  spearman : ∀ x y, x.length = y.length → Varies x → Varies y → lib.spearman x y = .ok (pearsonR (ranks x) (ranks y))

end
end Dissect
