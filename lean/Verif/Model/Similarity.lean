import Verif.Model.MatrixUtils

/-! # `similarity/*.py` -/

namespace Dissect
open Finset
noncomputable section

/-- The `Similarity` subclasses. -/
inductive Sim
  | cos | dot | euclid | lin
  deriving DecidableEq, Repr

/-- `DotProdSimilarity._sim` (`dot_prod.py:16-17`). -/
def dotSim (v1 v2 : TMat ℝ) : Py ℝ := do
  let p ← v1.multiply v2
  return p.sumAll

/-- `CosSimilarity._sim` (`cos.py:22-26`). -/
def cosSim (v1 v2 : TMat ℝ) : Py ℝ :=
  if v1.norm = 0 ∨ v2.norm = 0 then .ok 0
  else do
    let d ← dotSim v1 v2
    return d / (v1.norm * v2.norm)

/-- `EuclideanSimilarity._sim` (`euclidean.py:17-18`). -/
def euclidSim (v1 v2 : TMat ℝ) : Py ℝ := do
  let d ← v1.sub v2
  return 1 / (1 + d.norm)

/-- `LinSimilarity._sim` (`lin.py:22-31`). -/
def linSim (v1 v2 : TMat ℝ) : Py ℝ := do
  let prod ← v1.multiply v2
  let common := prod.toOnes
  let denom := v1.sumAll + v2.sumAll
  if denom = 0 then return 0
  else
    let s ← v1.add v2
    let c ← common.multiply s
    return c.sumAll / denom

namespace Sim

/-- `_sim` -/
def sim1 : Sim → TMat ℝ → TMat ℝ → Py ℝ
  | cos => cosSim
  | dot => dotSim
  | euclid => euclidSim
  | lin => linSim

/-- `Similarity.get_sim` (`similarity.py:16-25`). Simplification: arguments are `Matrix` objects. -/
def getSim (s : Sim) (v1 v2 : TMat ℝ) : Py ℝ := do
  let (a, b) ← v1.toCompatible v2
  a.assertSameShape b
  s.sim1 a b

/-- The loop of the default `_sims_to_matrix` (`similarity.py:43-45`). -/
def simLoop (s : Sim) (v m : TMat ℝ) : List ℕ → Py (List ℝ)
  | [] => .ok []
  | i :: is => do
    let r ← m.getRow (i : ℤ)
    let x ← s.sim1 v r
    let xs ← simLoop s v m is
    return x :: xs

/-- `DotProdSimilarity._sims_to_matrix` (`dot_prod.py:19-20`). -/
def dotToMatrix (v m : TMat ℝ) : Py (TMat ℝ) := do
  let vt ← v.transpose
  m.mul vt

/-- `_sims_to_matrix`: `cos.py:28-35`, `dot_prod.py:19-20`, default `similarity.py:41-46`. -/
def simsToMatrix (s : Sim) (v m : TMat ℝ) : Py (TMat ℝ) :=
  match s with
  | dot => dotToMatrix v m
  | cos => do
    let sims ← dotToMatrix v m
    let rowNorms := m.norm1.scale v.norm
    sims.scaleRows (nonzeroInvert rowNorms)
  | s => do
    let xs ← simLoop s v m (List.range m.nr)
    TMat.ofNumpy m.ty (Mat.of m.nr 1 (fun i _ => xs.getD i 0))

/-- `Similarity.get_sims_to_matrix` (`similarity.py:27-39`). -/
def getSimsToMatrix (s : Sim) (v m : TMat ℝ) : Py (TMat ℝ) := do
  let (v, m) ← v.toCompatible m
  if v.nc ≠ m.nc ∨ v.nr ≠ 1 then .error .valueError
  else s.simsToMatrix v m

end Sim
end
end Dissect
