import Verif.Model.Operation
import Verif.Model.Similarity

/-! # `semantic_space/space.py` and `semantic_space/peripheral_space.py` -/

namespace Dissect
open Finset
noncomputable section

/-- A `Space` (or `PeripheralSpace`) object: its seven attributes (`space.py:108-130`,
`peripheral_space.py:60-70`). Words are values of any type `κ` with decidable equality.
Simplification: `element_shape` entries are natural numbers. -/
structure Space (κ : Type) where
  mat : TMat ℝ
  id2row : List κ
  id2col : List κ
  row2id : Dict κ ℤ
  col2id : Dict κ ℤ
  ops : List (Op κ)
  elemShape : List ℕ

namespace Space
variable {κ : Type} [DecidableEq κ]

/-- `assert_shape_consistent(matrix_, id2row, id2column, row2id, column2id)` on label structures. -/
def shapeCheck (m : TMat ℝ) (id2row id2col : List κ) (row2id col2id : Dict κ ℤ) : Py Unit :=
  assertShapeConsistent m.nr m.nc id2row.length id2col.length row2id.len col2id.len

/-- `row2id is None` → `list2dict`, otherwise the given dictionary is checked (`space.py:96-104`,
`peripheral_space.py:52-55`). -/
def resolveMap (l : List κ) (d : Option (Dict κ ℤ)) : Py (Dict κ ℤ) :=
  match d with
  | none => list2dict l
  | some d => do
    assertDictMatchList d l
    return d

/-- `Space.__init__` (`space.py:61-130`). -/
def new (m : TMat ℝ) (id2row id2col : List κ) (row2id col2id : Option (Dict κ ℤ)) (ops : List (Op κ))
    (elemShape : Option (List ℕ)) : Py (Space κ) := do
  let r ← resolveMap id2row row2id
  let c ← resolveMap id2col col2id
  shapeCheck m id2row id2col r c
  match elemShape with
  | none => .ok ⟨m, id2row, id2col, r, c, ops, [m.nc]⟩
  | some sh => if sh.prod ≠ m.nc then .error .valueError else .ok ⟨m, id2row, id2col, r, c, ops, sh⟩

/-- `array(original_columns)[selected_columns]` (`space.py:171`, `peripheral_space.py:81`). -/
def pickLabels (labels : List κ) : List ℕ → Py (List κ)
  | [] => .ok []
  | i :: is => do
    let x ← pyGet labels (i : ℤ)
    let xs ← pickLabels labels is
    return x :: xs

/-- `assert_1dim_element` (`space.py:466-473`). The message is built with `"...%s" % self.element_shape`; as
`element_shape` is a tuple with more than one component, the formatting itself raises `TypeError` before
`IllegalOperationError` can be raised. -/
def assert1dim (s : Space κ) : Py Unit :=
  if s.elemShape.length > 1 then .error .typeError else .ok ()

/-- The column structures after a feature selection (`space.py:170-174`, `peripheral_space.py:80-84`). -/
def selectedColumns (original : Option (List κ)) (selected : Option (List ℕ)) : Py (List κ × Dict κ ℤ) :=
  match original with
  | none => .ok ([], Dict.empty)
  | some [] => .ok ([], Dict.empty)
  | some (o :: os) =>
    match selected with
    | none => .error .typeError
    | some sel => do
      let cols ← pickLabels (o :: os) sel
      let d ← list2dict cols
      return (cols, d)

/-- `Space.apply` (`space.py:133-186`). -/
def apply (env : Env) (s : Space κ) (t : Trans) : Py (Space κ) := do
  let (op, m) ← (t.createOp : Op κ).apply env s.mat
  match op with
  | .dimred _ _ => do
    s.assert1dim
    new m s.id2row [] (some s.row2id) (some Dict.empty) (s.ops ++ [op]) none
  | .featsel k c sel _ => do
    s.assert1dim
    let op' : Op κ := .featsel k c sel (some s.id2col)
    let (cols, d) ← selectedColumns (some s.id2col) sel
    new m s.id2row cols (some s.row2id) (some d) (s.ops ++ [op']) none
  | .scaling _ _ =>
    new m s.id2row s.id2col (some s.row2id) (some s.col2id) (s.ops ++ [op]) none

/-- A sequence of transformations, applied left to right. -/
def applyAll (env : Env) (s : Space κ) : List Trans → Py (Space κ)
  | [] => .ok s
  | t :: ts => do
    let s' ← s.apply env t
    s'.applyAll env ts

/-- `get_row` (`space.py:360-372`). -/
def getRow (s : Space κ) (w : κ) : Py (TMat ℝ) := do
  let i ← s.row2id.getItem w
  s.mat.getRow i

/-- The loop of `get_rows` (`space.py:388-390`). -/
def rowIds (s : Space κ) : List κ → Py (List ℤ)
  | [] => .ok []
  | w :: ws => do
    let i ← s.row2id.getItem w
    let is ← rowIds s ws
    return i :: is

/-- `get_rows` (`space.py:374-392`). -/
def getRows (s : Space κ) (ws : List κ) : Py (TMat ℝ) := do
  let is ← s.rowIds ws
  s.mat.getRows is

/-- `set_cooccurrence_matrix` (`space.py:394-398`). The arguments are passed in the order
`(row2id, id2row, column2id, id2column)` to parameters `(id2row, id2column, row2id, column2id)`. -/
def setMatrix (s : Space κ) (m : TMat ℝ) : Py (Space κ) := do
  assertShapeConsistent m.nr m.nc s.row2id.len s.id2row.length s.col2id.len s.id2col.length
  return { s with mat := m }

/-- `to_dense` (`space.py:348-352`). -/
def toDense (s : Space κ) : Py (Space κ) := do
  let m ← s.mat.toDense
  return { s with mat := m }

/-- `to_sparse` (`space.py:354-358`). -/
def toSparse (s : Space κ) : Py (Space κ) := do
  let m ← s.mat.toSparse
  return { s with mat := m }

/-- `try: v = ...get_row(w) except KeyError: return 0.0` (`space.py:209-221`). -/
def getRowOpt (s : Space κ) (w : κ) : Py (Option (TMat ℝ)) :=
  match s.getRow w with
  | .ok v => .ok (some v)
  | .error .keyError => .ok none
  | .error e => .error e

/-- `get_sim` (`space.py:188-224`). -/
def getSim (s : Space κ) (w1 w2 : κ) (sim : Sim) (space2 : Option (Space κ)) : Py ℝ := do
  match ← s.getRowOpt w1 with
  | none => return 0
  | some v1 =>
    match ← (space2.getD s).getRowOpt w2 with
    | none => return 0
    | some v2 =>
      match ← TMat.resolveTypeConflict [v1, v2] (some .dense) with
      | [a, b] => sim.getSim a b
      | _ => .error .valueError

/-- `get_sims` (`space.py:226-248`). -/
def getSims (s : Space κ) (sim : Sim) (space2 : Option (Space κ)) : List (κ × κ) → Py (List ℝ)
  | [] => .ok []
  | (w1, w2) :: ps => do
    let x ← s.getSim w1 w2 sim space2
    let xs ← getSims s sim space2 ps
    return x :: xs

/-- The result loop of `get_neighbours` (`space.py:292-294`) over the first positions of the permutation. -/
def neighbourLoop (id2row : List κ) (sims : TMat ℝ) : List ℕ → Py (List (κ × ℝ))
  | [] => .ok []
  | i :: is => do
    let w ← pyGet id2row (i : ℤ)
    let rest ← neighbourLoop id2row sims is
    return (w, sims.val.get i 0) :: rest

/-- The query vector, converted to the class of the searched space when one is given (`space.py:280-285`). -/
def queryVector (v : TMat ℝ) (space2 : Option (Space κ)) : Py (TMat ℝ) :=
  match space2 with
  | none => .ok v
  | some s2 => v.toType s2.mat.ty

/-- `get_neighbours` (`space.py:250-299`). `range(n)` is empty for negative `n`. -/
def getNeighbours (s : Space κ) (w : κ) (n : ℤ) (sim : Sim) (space2 : Option (Space κ)) :
    Py (List (κ × ℝ)) := do
  let v ← s.getRow w
  let target := space2.getD s
  let v' ← queryVector v space2
  let sims ← sim.getSimsToMatrix v' target.mat
  let perm := sortedPermutation sims.sum1
  let k := (min n (target.id2row.length : ℤ)).toNat
  if k ≤ perm.length then neighbourLoop target.id2row sims (perm.take k) else .error .indexError

/-- `Space.vstack` (`space.py:301-346`). -/
def vstack (s1 s2 : Space κ) : Py (Space κ) := do
  if s1.mat.nc ≠ s2.mat.nc then .error .valueError
  else if s1.id2col ≠ s2.id2col then .error .valueError
  else
    let (d, out) := addItemsToDict s1.row2id s2.id2row
    out
    let ty := TMat.typeOfLargest [s1.mat, s2.mat]
    match ← TMat.resolveTypeConflict [s1.mat, s2.mat] ty with
    | [m1, m2] => do
      let m ← m1.vstack m2
      new m (s1.id2row ++ s2.id2row) s1.id2col (some d) (some s1.col2id) [] none
    | _ => .error .valueError

end Space

/-! ### `PeripheralSpace` -/
namespace Periph
variable {κ : Type} [DecidableEq κ]

/-- `_project_core_operations` (`peripheral_space.py:73-87`): the column structures reached (also when an exception
is raised) and the projected matrix. -/
def projectOps (id2col : List κ) (col2id : Dict κ ℤ) (m : TMat ℝ) :
    List (Op κ) → (List κ × Dict κ ℤ) × Py (TMat ℝ)
  | [] => ((id2col, col2id), .ok m)
  | op :: ops =>
    let cols : Py (List κ × Dict κ ℤ) := match op with
      | .scaling _ _ => .ok (id2col, col2id)
      | .dimred _ _ => .ok ([], Dict.empty)
      | .featsel _ _ sel orig => Space.selectedColumns orig sel
    match cols with
    | .error e => ((id2col, col2id), .error e)
    | .ok (c, d) => match op.project m with
      | .error e => ((c, d), .error e)
      | .ok m' => projectOps c d m' ops

/-- `PeripheralSpace.__init__` (`peripheral_space.py:24-70`). -/
def new (core : Space κ) (m : TMat ℝ) (id2row : List κ) (row2id : Option (Dict κ ℤ)) : Py (Space κ) := do
  let r ← Space.resolveMap id2row row2id
  let ((c, d), out) := projectOps core.id2col core.col2id m core.ops
  let m' ← out
  Space.shapeCheck m' id2row c r d
  return ⟨m', id2row, c, r, d, core.ops, [m'.nc]⟩

/-- `add_rows` (`peripheral_space.py:90-123`): the object afterwards, whatever happens, and the outcome. -/
def addRows (p : Space κ) (m : TMat ℝ) (id2row : List κ) : Space κ × Py Unit :=
  let (d, out) := addItemsToDict p.row2id id2row
  let p1 := { p with row2id := d }
  match out with
  | .error _ => (p1, .error .valueError)
  | .ok () =>
    if m.nr ≠ id2row.length then (p1, .error .valueError)
    else
      let p2 := { p1 with id2row := p.id2row ++ id2row }
      let ((c, cd), out) := projectOps p.id2col p.col2id m p.ops
      let p3 := { p2 with id2col := c, col2id := cd }
      match out with
      | .error e => (p3, .error e)
      | .ok m' => match p.mat.vstack m' with
        | .error e => (p3, .error e)
        | .ok mm =>
          let p4 := { p3 with mat := mm }
          (p4, Space.shapeCheck mm p4.id2row p4.id2col p4.row2id p4.col2id)

/-- Several `add_rows` calls, stopping at the first exception. -/
def addBatches (p : Space κ) : List (TMat ℝ × List κ) → Py (Space κ)
  | [] => .ok p
  | (m, ws) :: bs => match addRows p m ws with
    | (p', .ok ()) => addBatches p' bs
    | (_, .error e) => .error e

end Periph
end
end Dissect
