import Verif.Model.Matrix
import Mathlib.Data.List.Sort
import Mathlib.Data.Real.Basic

/-! # `utils/crossvalidation_utils.py` and `utils/scoring_utils.py` -/

namespace Dissect
noncomputable section

/-! ## Cross validation -/

/-- `l[a:b]` for `0 ≤ a ≤ b` (Python builtin). -/
def pySlice {α : Type} (l : List α) (a b : ℕ) : List α := (l.drop a).take (b - a)

/-- The loop of `get_split_indices` (`crossvalidation_utils.py:21-29`) over the remaining values of `i`; `cur` is
`current_index`, `rng` the shuffled `range_`. -/
def splitLoop (rng : List ℕ) (n fold : ℕ) : List ℕ → ℕ → List (List ℕ)
  | [], _ => []
  | i :: is, cur =>
    let len := if i < rng.length % fold then n / fold + 1 else n / fold
    pySlice rng cur (cur + len) :: splitLoop rng n fold is (cur + len)

/-- `get_split_indices` once the arguments are known to be positive (`crossvalidation_utils.py:19-31`); `shuffle` is what
`random.shuffle` does to the list on this call. -/
def splitPos (shuffle : List ℕ → List ℕ) (n fold : ℕ) : List (List ℕ) :=
  splitLoop (shuffle (List.range n)) n fold (List.range fold) 0

/-- `get_split_indices` (`crossvalidation_utils.py:9-31`). The recursive call `get_split_indices(n, n)` is unfolded: it
does not recurse again. -/
def getSplitIndices (shuffle : List ℕ → List ℕ) (n fold : ℤ) : Py (List (List ℕ)) :=
  if fold ≤ 0 then .error .valueError
  else if n < fold then
    (if n ≤ 0 then .error .valueError else .ok (splitPos shuffle n.toNat n.toNat))
  else .ok (splitPos shuffle n.toNat fold.toNat)

/-- `get_submatrix_list` (`crossvalidation_utils.py:33-34`). -/
def getSubmatrixList (m : TMat ℝ) : List (List ℕ) → Py (List (TMat ℝ))
  | [] => .ok []
  | is :: rest => do
    let s ← m.getRows (is.map Int.ofNat)
    let ss ← getSubmatrixList m rest
    return s :: ss

/-! ## Scoring -/

/-- A record of `point_set` (`scoring_utils.py:39`): `('gold', 'score')`. -/
structure Pt where
  gold : ℝ
  score : ℝ

/-- The order of `point_set.sort(order='score')` (`scoring_utils.py:45`): numpy compares the named field first and breaks
ties with the remaining fields. -/
def Pt.le (a b : Pt) : Prop := a.score < b.score ∨ (a.score = b.score ∧ a.gold ≤ b.gold)

instance : DecidableRel Pt.le := fun a b => by unfold Pt.le; exact Classical.propDecidable _

/-- Building `point_set` (`scoring_utils.py:40-43`): `ValueError` for a gold value other than 0/1, `IndexError` when the
predictions run out. -/
def pointSet : List ℝ → List ℝ → Py (List Pt)
  | [], _ => .ok []
  | g :: gs, ps =>
    if g = 0 ∨ g = 1 then
      match ps with
      | [] => .error .indexError
      | p :: ps => do
        let rest ← pointSet gs ps
        return ⟨g, p⟩ :: rest
    else .error .valueError

/-- Loop variables of `auc` (`scoring_utils.py:47-52`). -/
structure AucSt where
  yi : ℝ
  xiOld : ℝ
  tp : ℝ
  fp : ℝ
  auc : ℝ

/-- One iteration (`scoring_utils.py:55-62`). -/
def aucStep (positive negative : ℝ) (st : AucSt) (p : Pt) : AucSt :=
  if p.gold = 1 then { st with tp := st.tp - 1, yi := (st.tp - 1) / positive }
  else { st with fp := st.fp - 1, auc := st.auc + (st.xiOld - (st.fp - 1) / negative) * st.yi,
                 xiOld := (st.fp - 1) / negative }

/-- `auc` (`scoring_utils.py:33-64`). Simplification: scores are real numbers (no NaN). -/
def auc (gold prediction : List ℝ) : Py ℝ := do
  let positive : ℝ := ((gold.filter (fun g => decide (g = 1))).length : ℝ)
  let negative : ℝ := (gold.length : ℝ) - positive
  let pts ← pointSet gold prediction
  let sorted := pts.insertionSort Pt.le
  return (sorted.foldl (aucStep positive negative) ⟨1, 1, positive, negative, 0⟩).auc

/-- `scipy.stats.pearsonr(..)[0]` and `scipy.stats.spearmanr(..)[0]`. -/
structure StatsLib where
  pearson : List ℝ → List ℝ → Py ℝ
  spearman : List ℝ → List ℝ → Py ℝ

/-- `score` (`scoring_utils.py:11-25`). -/
def score (lib : StatsLib) (gold prediction : List ℝ) (method : List Char) : Py ℝ :=
  if gold.length ≠ prediction.length then .error .valueError
  else if method = ['p', 'e', 'a', 'r', 's', 'o', 'n'] then lib.pearson gold prediction
  else if method = ['s', 'p', 'e', 'a', 'r', 'm', 'a', 'n'] then lib.spearman gold prediction
  else if method = ['a', 'u', 'c'] then auc gold prediction
  else .error .notImplementedError

end
end Dissect
