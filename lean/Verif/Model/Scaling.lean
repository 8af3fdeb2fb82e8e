import Verif.Model.MatrixUtils

/-! # `transformation/scaling/*.py`, `transformation/feature_selection/*.py` -/

namespace Dissect
open Finset
noncomputable section

/-- `criterion` of the normalisations and of feature selection: `"sum"` or `"length"`
(`row_normalization.py:24-25`, `normalization.py:23-24`, `top_feature_selection.py:24-25`). -/
inductive Crit
  | sum | length
  deriving DecidableEq, Repr

/-- The `Scaling` subclasses. -/
inductive ScalingT
  | epmi | ppmi | plmi | plog | rowNorm (c : Crit) | norm (c : Crit)
  deriving DecidableEq, Repr

/-- Column statistics stored by a scaling operation: the column marginals (numpy matrix `1 × n`) or one number. -/
inductive Stats
  | cols (a : Arr ℝ)
  | num (x : ℝ)

/-- `EpmiWeighting.apply` (`epmi_weighting.py:16-48`). -/
def epmi (m : TMat ℝ) (marginal : Option (Arr ℝ)) : Py (TMat ℝ) := do
  m.assertPositive
  let rowSum := m.sum1
  let colSum := marginal.getD m.sum0
  let total := colSum.sum
  let m1 ← m.scaleRows (nonzeroInvert rowSum)
  m1.scaleCols ((nonzeroInvert colSum).scale total)

/-- `PpmiWeighting.apply` (`ppmi_weighting.py:18-22`). -/
def ppmi (m : TMat ℝ) (marginal : Option (Arr ℝ)) : Py (TMat ℝ) := do
  let e ← epmi m marginal
  return e.plog

/-- `PlmiWeighting.apply` (`plmi_weighting.py:16-18`). -/
def plmi (m : TMat ℝ) (marginal : Option (Arr ℝ)) : Py (TMat ℝ) := do
  let p ← ppmi m marginal
  m.multiply p

/-- `PlogWeighting.apply` (`plog_weighting.py:13-27`). -/
def plogWeighting (m : TMat ℝ) : Py (TMat ℝ) := do
  let c ← m.copy
  return c.plog

/-- `RowNormalization.apply` (`row_normalization.py:42-51`). -/
def rowNormalization (c : Crit) (m : TMat ℝ) : Py (TMat ℝ) :=
  let rowNorms := match c with
    | .length => m.norm1
    | .sum => m.sum1
  m.scaleRows (nonzeroInvert rowNorms)

/-- The number `total` of `Normalization` (`normalization.py:44-48, 57-62`). -/
def normTotal (c : Crit) (m : TMat ℝ) : ℝ :=
  match c with
  | .length => m.norm
  | .sum => m.sumAll

/-- `Normalization.apply` (`normalization.py:42-55`). -/
def normalization (c : Crit) (m : TMat ℝ) (total? : Option ℝ) : Py (TMat ℝ) :=
  let total := total?.getD (normTotal c m)
  if total = 0 then .ok m else m.mulScalar (1 / total)

namespace ScalingT

/-- `uses_column_stats` (`scaling.py:14`, `epmi_weighting.py:14`, `ppmi_weighting.py:16`, `plmi_weighting.py:14`,
`normalization.py:25`). -/
def usesStats : ScalingT → Bool
  | epmi => true
  | ppmi => true
  | plmi => true
  | plog => false
  | rowNorm _ => false
  | norm _ => true

/-- `get_column_stats` (`epmi_weighting.py:50-51`, `ppmi_weighting.py:24-25`, `plmi_weighting.py:21-22`,
`normalization.py:57-62`); the two scalings without statistics have no such method and it is never called on them. -/
def columnStats (t : ScalingT) (m : TMat ℝ) : Stats :=
  match t with
  | norm c => .num (normTotal c m)
  | _ => .cols m.sum0

/-- `apply(matrix_)` or `apply(matrix_, column_stats)`. Simplification: statistics of the wrong kind, which no call
passes, are `TypeError`. -/
def apply (t : ScalingT) (m : TMat ℝ) (st : Option Stats) : Py (TMat ℝ) :=
  match t, st with
  | epmi, none => Dissect.epmi m none
  | epmi, some (.cols a) => Dissect.epmi m (some a)
  | ppmi, none => Dissect.ppmi m none
  | ppmi, some (.cols a) => Dissect.ppmi m (some a)
  | plmi, none => Dissect.plmi m none
  | plmi, some (.cols a) => Dissect.plmi m (some a)
  | plog, none => plogWeighting m
  | rowNorm c, none => rowNormalization c m
  | norm c, none => normalization c m none
  | norm c, some (.num x) => normalization c m (some x)
  | _, _ => .error .typeError

end ScalingT

/-- `TopFeatureSelection.apply` (`top_feature_selection.py:43-59`): the reduced matrix and the selected columns. -/
def topFeatureSelection (k : ℕ) (c : Crit) (m : TMat ℝ) : Py (TMat ℝ × List ℕ) := do
  let norms := match c with
    | .sum => m.sum0
    | .length => m.norm0
  let noCols := min k m.nc
  let perm := (sortedPermutation norms).take noCols
  let r ← m.getCols perm
  return (r, perm)

/-- `FeatureSelection.__init__` (`feature_selection.py:14-19`), `DimensionalityReduction.__init__`
(`dimensionality_reduction.py:15-22`): the accepted dimension. -/
def checkDim (k : ℤ) : Py ℕ := if k ≤ 0 then .error .valueError else .ok k.toNat

end
end Dissect
