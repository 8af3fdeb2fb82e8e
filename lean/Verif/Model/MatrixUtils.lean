import Verif.Model.Matrix

/-! # `utils/matrix_utils.py` -/

namespace Dissect
namespace TMat
variable {K : Type}

section Zero
variable [Zero K]

/-- `matrix_type_conflict` (`utils/matrix_utils.py:90-100`). -/
def typeConflict : List (TMat K) → Bool
  | [] => false
  | t :: ts => (t :: ts).any (fun u => decide (u.ty ≠ t.ty))

/-- Convert a list of matrices to one class, left to right. -/
def toTypeAll (ty : MTy) : List (TMat K) → Py (List (TMat K))
  | [] => .ok []
  | t :: ts => match t.toType ty with
    | .error e => .error e
    | .ok u => match toTypeAll ty ts with
      | .error e => .error e
      | .ok us => .ok (u :: us)

/-- `resolve_type_conflict` (`utils/matrix_utils.py:78-87`). `none` for the type is Python's `None`, which is not
callable (`TypeError`). -/
def resolveTypeConflict (l : List (TMat K)) (ty : Option MTy) : Py (List (TMat K)) :=
  if typeConflict l then
    match ty with
    | some ty => toTypeAll ty l
    | none => .error .typeError
  else .ok l

/-- `get_type_of_largest` (`utils/matrix_utils.py:68-76`). -/
def typeOfLargest (l : List (TMat K)) : Option MTy :=
  (l.foldl (fun (acc : ℕ × Option MTy) t =>
    if t.nr * t.nc > acc.1 then (t.nr * t.nc, some t.ty) else acc) (0, none)).2

/-- `to_compatible_matrix_types(v1, v2)` for two `Matrix` objects (`utils/matrix_utils.py:52-64`).
Simplification: raw numpy/scipy arguments are not modelled. -/
def toCompatible (s t : TMat K) : Py (TMat K × TMat K) :=
  match t.toType s.ty with
  | .error e => .error e
  | .ok t' => .ok (s, t')

end Zero

section Field
variable [Field K]

/-- `padd_matrix` (`utils/matrix_utils.py:28-37`). `axis` is any integer. -/
def padd (t : TMat K) (axis : ℤ) (value : K) : Py (TMat K) :=
  if axis = 0 then
    match ofNumpy t.ty (Mat.const 1 t.nc value) with
    | .error e => .error e
    | .ok a => t.vstack a
  else if axis = 1 then
    match ofNumpy t.ty (Mat.const t.nr 1 value) with
    | .error e => .error e
    | .ok a => t.hstack a
  else .error .valueError

/-- `assert_same_shape(m1, m2, axis)` with axis 0 (`utils/matrix_utils.py:40-49`). -/
def assertSameRows (s t : TMat K) : Py Unit :=
  if s.nr = t.nr then .ok () else .error .valueError

end Field
end TMat
end Dissect
