import Verif.Model.Scaling
import Verif.Model.Linalg
import Verif.Model.SpaceUtils

/-! # `transformation/dim_reduction/*.py` and `semantic_space/operation.py` -/

namespace Dissect
open Finset
noncomputable section

/-- Random picks of `Nmf.v_col_init` and the behaviour of the clock: for the `i`-th pass the column and the row
numbers drawn (`nmf.py:66-70`), and whether the time limit is exceeded in each pass (`linalg.py:360`). -/
structure Chance where
  cols : ℕ → List ℕ
  rows : ℕ → List ℕ
  timeout : ℕ → Bool

/-- `Svd(k)`, `Nmf(k)` (`svd.py:10-27`, `nmf.py:12-30`). -/
inductive DimRedT
  | svd (k : ℕ)
  | nmf (k : ℕ) (ch : Chance)

/-- One column of `w` and one row of `h` (`nmf.py:72-73`): averages of randomly drawn columns and rows. -/
def vColEntries (m : TMat ℝ) (ch : Chance) (pCol pRow : ℕ) : ℕ → Py (List (List ℝ × List ℝ))
  | 0 => .ok []
  | i + 1 => do
    let front ← vColEntries m ch pCol pRow i
    let a ← m.getCols (ch.cols i)
    let b ← m.getRows ((ch.rows i).map Int.ofNat)
    return front ++ [((List.range m.nr).map (fun r => a.val.rowSum r / (pCol : ℝ)),
                      (List.range m.nc).map (fun c => b.val.colSum c / (pRow : ℝ)))]

/-- `Nmf.v_col_init` (`nmf.py:57-78`). -/
def vColInit (m : TMat ℝ) (k : ℕ) (ch : Chance) : Py (TMat ℝ × TMat ℝ) := do
  let pCol := m.nc / 5 + 1
  let pRow := m.nr / 5 + 1
  let es ← vColEntries m ch pCol pRow k
  let w ← TMat.ofNumpy m.ty (Mat.of m.nr k (fun r i => (es.getD i ([], [])).1.getD r 0))
  let h ← TMat.ofNumpy m.ty (Mat.of k m.nc (fun i c => (es.getD i ([], [])).2.getD c 0))
  return (w, h)

namespace DimRedT

/-- `Svd.apply` (`svd.py:29-32`), `Nmf.apply` (`nmf.py:32-39`): reduced matrix and transformation matrix. -/
def apply (env : Env) (t : DimRedT) (m : TMat ℝ) : Py (TMat ℝ × TMat ℝ) :=
  match t with
  | svd k => do
    let (u, s, v) ← Dissect.svd env m k
    let us ← u.scaleCols s
    return (us, v)
  | nmf k ch => do
    m.assertPositive
    let (w0, h0) ← vColInit m k ch
    let (w, h) ← Dissect.nmf m w0 h0 ch.timeout
    let p ← pinv env h
    return (w, p)

/-- `name == "nmf"` (`nmf.py:24`, `svd.py:21`). -/
def isNmf : DimRedT → Bool
  | svd _ => false
  | nmf _ _ => true

end DimRedT

/-- A transformation object given to `Space.apply`. -/
inductive Trans
  | scaling (t : ScalingT)
  | dimred (t : DimRedT)
  | featsel (k : ℕ) (c : Crit)

/-- An operation object (`operation.py:39-47, 102-110, 173-182`) with its stored state (`none` = Python `None`). -/
inductive Op (κ : Type)
  | scaling (t : ScalingT) (stats : Option Stats)
  | dimred (t : DimRedT) (transmat : Option (TMat ℝ))
  | featsel (k : ℕ) (c : Crit) (selected : Option (List ℕ)) (original : Option (List κ))

/-- `create_operation` (`scaling.py:22-23`, `dimensionality_reduction.py:24-25`, `feature_selection.py:21-22`). -/
def Trans.createOp {κ : Type} : Trans → Op κ
  | scaling t => .scaling t none
  | dimred t => .dimred t none
  | featsel k c => .featsel k c none none

namespace Op
variable {κ : Type}

/-- `apply` (`operation.py:49-74, 112-133, 184-203`): the operation object afterwards and the new matrix. When an
exception is raised no field of the operation has been changed yet. -/
def apply (env : Env) (op : Op κ) (m : TMat ℝ) : Py (Op κ × TMat ℝ) :=
  match op with
  | scaling t stats =>
    match stats with
    | some _ => .error .illegalStateError
    | none => do
      let r ← t.apply m none
      return (scaling t (if t.usesStats then some (t.columnStats m) else none), r)
  | dimred t tm =>
    match tm with
    | some _ => .error .illegalStateError
    | none => do
      let (r, tm') ← t.apply env m
      let d ← r.toDense
      return (dimred t (some tm'), d)
  | featsel k c sel orig =>
    match sel with
    | some _ => .error .illegalStateError
    | none => do
      let (r, sel') ← topFeatureSelection k c m
      return (featsel k c (some sel') orig, r)

/-- `project` (`operation.py:76-96, 135-167, 205-224`). No state is changed. Line 221 reads `self.__dim_reduction`,
which a `FeatureSelectionOperation` does not have: `AttributeError`. -/
def project (op : Op κ) (m : TMat ℝ) : Py (TMat ℝ) :=
  match op with
  | scaling t stats =>
    if t.usesStats then
      match stats with
      | none => .error .illegalStateError
      | some st => t.apply m (some st)
    else t.apply m none
  | dimred t tm =>
    match tm with
    | none => .error .illegalStateError
    | some tm => do
      if t.isNmf then m.assertPositive
      let l ← TMat.resolveTypeConflict [m, tm] (some m.ty)
      match l with
      | [m', tm'] => do
        let r ← m'.mul tm'
        let r' := if t.isNmf then r.toNonNegative else r
        r'.toDense
      | _ => .error .valueError
  | featsel _ _ sel _ =>
    match sel with
    | none => .error .attributeError
    | some cols => m.getCols cols

end Op
end
end Dissect
