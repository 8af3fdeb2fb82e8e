import Verif.Model.Py
import Verif.Model.Mat
import Mathlib.Algebra.Order.Field.Basic
import Mathlib.Analysis.SpecialFunctions.Log.Basic
import Mathlib.Analysis.SpecialFunctions.Sqrt

/-!
# `DenseMatrix` / `SparseMatrix` objects

A `TMat K` is an object of class `DenseMatrix` or `SparseMatrix`, seen as its class tag plus the mathematical matrix
it stores.  Every method below follows the branches of the class methods in `src/composes/matrix/*.py`.
The stored arrays of a `csr_matrix` are the subject of `Model/Csr.lean`.
-/

namespace Dissect
open Finset

/-- The two concrete subclasses of `Matrix` (`matrix/dense_matrix.py:13`, `matrix/sparse_matrix.py:20`). -/
inductive MTy
  | dense | sparse
  deriving DecidableEq, Repr

/-- A `DenseMatrix` or `SparseMatrix` object. -/
structure TMat (K : Type) [Zero K] where
  ty : MTy
  val : Mat K

/-- A numpy array or numpy matrix given as an argument: its shape and its elements in row-major order. -/
structure Arr (K : Type) where
  shape : List ℕ
  data : List K

namespace TMat
variable {K : Type}

section Zero
variable [Zero K]

theorem ext' {s t : TMat K} (h1 : s.ty = t.ty) (h2 : s.val = t.val) : s = t := by
  cases s; cases t; simp_all

/-- `.shape[0]` (`matrix/matrix.py:138-141`) -/
abbrev nr (t : TMat K) : ℕ := t.val.nr
/-- `.shape[1]` (`matrix/matrix.py:138-141`) -/
abbrev nc (t : TMat K) : ℕ := t.val.nc

/-- `DenseMatrix(m)` / `SparseMatrix(m)` where `m` is a two-dimensional numpy result (dense) or a scipy result
(sparse): `dense_matrix.py:18-51`, `sparse_matrix.py:26-59`. Only numpy matrices are checked for emptiness. -/
def wrap (ty : MTy) (A : Mat K) : Py (TMat K) :=
  match ty with
  | .dense => if A.nr = 0 ∨ A.nc = 0 then .error .valueError else .ok ⟨.dense, A⟩
  | .sparse => .ok ⟨.sparse, A⟩

/-- `MatrixType(m)` where `m` is a numpy matrix, whatever the class: `dense_matrix.py:36-43`,
`sparse_matrix.py:45-53`; an empty one is refused. -/
def ofNumpy (ty : MTy) (A : Mat K) : Py (TMat K) :=
  if A.nr = 0 ∨ A.nc = 0 then .error .valueError else .ok ⟨ty, A⟩

/-- `DenseMatrix(t)`: `dense_matrix.py:44-47` (`to_dense_matrix`, `dense_matrix.py:353-361`,
`sparse_matrix.py:394-399`); the conversion from scipy (`todense`) has no emptiness check. -/
def toDense (t : TMat K) : Py (TMat K) := .ok ⟨.dense, t.val⟩

/-- `SparseMatrix(t)`: `sparse_matrix.py:55-56` (`to_sparse_matrix`, `dense_matrix.py:346-351`,
`sparse_matrix.py:401-408`). -/
def toSparse (t : TMat K) : Py (TMat K) :=
  match t.ty with
  | .sparse => .ok t
  | .dense => ofNumpy .sparse t.val

/-- `matrix_type(t)` for a class object `matrix_type`. -/
def toType (ty : MTy) (t : TMat K) : Py (TMat K) :=
  match ty with
  | .dense => t.toDense
  | .sparse => t.toSparse

/-- `_assert_same_type` (`matrix/matrix.py:63-66`). -/
def assertSameType (s t : TMat K) : Py Unit :=
  if s.ty = t.ty then .ok () else .error .typeError

/-- `assert_same_shape` (`matrix/matrix.py:68-82`). -/
def assertSameShape (s t : TMat K) : Py Unit :=
  if s.nr = t.nr ∧ s.nc = t.nc then .ok () else .error .valueError

/-- `copy` (`matrix/matrix.py:146-147`); values are immutable here, so only the constructor check remains. -/
def copy (t : TMat K) : Py (TMat K) := wrap t.ty t.val

/-- `transpose` (`dense_matrix.py:84-92`, `sparse_matrix.py:151-159`). -/
def transpose (t : TMat K) : Py (TMat K) := wrap t.ty t.val.transpose

/-- `m[i]`, `m[i, :]` for an integer `i`, negative ones counting from the end
(`dense_matrix.py:56-61`, `sparse_matrix.py:64-93`). -/
def getRow (t : TMat K) (i : ℤ) : Py (TMat K) :=
  match pyIdx t.nr i with
  | none => .error .indexError
  | some k => wrap t.ty (t.val.row k)

/-- Normalise a list of Python indices. -/
def normIdx (n : ℕ) : List ℤ → Py (List ℕ)
  | [] => .ok []
  | i :: is => match pyIdx n i with
    | none => .error .indexError
    | some k => match normIdx n is with
      | .error e => .error e
      | .ok ks => .ok (k :: ks)

/-- `m[row_ids, :]` for a list of integers (`dense_matrix.py:56-61`, `sparse_matrix.py:89-93`). -/
def getRows (t : TMat K) (is : List ℤ) : Py (TMat K) :=
  match normIdx t.nr is with
  | .error e => .error e
  | .ok ks => wrap t.ty (t.val.selRows ks)

/-- `m[:, cols]` for a list of column numbers (`dense_matrix.py:56-61`, `sparse_matrix.py:89-93`).
Simplification: the callers only pass non-negative numbers. -/
def getCols (t : TMat K) (cs : List ℕ) : Py (TMat K) :=
  if cs.all (fun c => decide (c < t.nc)) then wrap t.ty (t.val.selCols cs) else .error .indexError

/-- `vstack` (`dense_matrix.py:126-141`, `sparse_matrix.py:182-197`); numpy and scipy raise `ValueError` on
different widths. -/
def vstack (s t : TMat K) : Py (TMat K) :=
  if s.ty = t.ty then
    if s.nc = t.nc then wrap s.ty (s.val.vstack t.val) else .error .valueError
  else .error .typeError

/-- `hstack` (`dense_matrix.py:143-158`, `sparse_matrix.py:200-215`). -/
def hstack (s t : TMat K) : Py (TMat K) :=
  if s.ty = t.ty then
    if s.nr = t.nr then wrap s.ty (s.val.hstack t.val) else .error .valueError
  else .error .typeError

/-- `reshape` (`dense_matrix.py:94-111`, `sparse_matrix.py:95-135`): the new object state, `ValueError` when the size
differs. (The coordinate arithmetic of the sparse version is `Csr.reshape`.) -/
def reshape (t : TMat K) (nr' nc' : ℕ) : Py (TMat K) :=
  if t.nr * t.nc = nr' * nc' then .ok ⟨t.ty, t.val.reshape nr' nc'⟩ else .error .valueError

/-- `nary_vstack` (`dense_matrix.py:160-173`, `sparse_matrix.py:218-231`) called on the class `ty`; an empty list is
`ValueError` in numpy and scipy. Simplification: the documented precondition that all matrices are of this class is not
checked by the code; numpy and scipy misbehave otherwise, modelled as `TypeError`. -/
def naryVstack (ty : MTy) : List (TMat K) → Py (TMat K)
  | [] => .error .valueError
  | t :: ts =>
    if (t :: ts).all (fun u => decide (u.ty = ty)) then
      if ts.all (fun u => decide (u.nc = t.nc)) then
        wrap ty (ts.foldl (fun acc u => acc.vstack u.val) t.val)
      else .error .valueError
    else .error .typeError

end Zero

section Arith
variable [Field K]

/-- numpy broadcasting of one dimension. -/
def bcast (m n : ℕ) : Option ℕ :=
  if m = n then some m else if m = 1 then some n else if n = 1 then some m else none

/-- Element-wise binary numpy operation with broadcasting. -/
def bcastOp (f : K → K → K) (A B : Mat K) : Option (Mat K) :=
  match bcast A.nr B.nr, bcast A.nc B.nc with
  | some r, some c => some (Mat.of r c (fun i j =>
      f (A.get (if A.nr = 1 then 0 else i) (if A.nc = 1 then 0 else j))
        (B.get (if B.nr = 1 then 0 else i) (if B.nc = 1 then 0 else j))))
  | _, _ => none

/-- `self.mat + other.mat` resp. `-`: numpy broadcasts, scipy requires equal shapes. -/
def elemOp (f : K → K → K) (s t : TMat K) : Py (TMat K) :=
  if s.ty = t.ty then
    match s.ty with
    | .dense => match bcastOp f s.val t.val with
      | some C => wrap .dense C
      | none => .error .valueError
    | .sparse =>
      if s.nr = t.nr ∧ s.nc = t.nc then
        wrap .sparse (Mat.of s.nr s.nc (fun i j => f (s.val.get i j) (t.val.get i j)))
      else .error .valueError
  else .error .typeError

/-- `__add__` (`matrix/matrix.py:24-27`). -/
def add (s t : TMat K) : Py (TMat K) := elemOp (· + ·) s t
/-- `__sub__` (`matrix/matrix.py:29-32`). -/
def sub (s t : TMat K) : Py (TMat K) := elemOp (· - ·) s t
/-- `__neg__` (`matrix/matrix.py:34-36`). -/
def neg (t : TMat K) : Py (TMat K) := wrap t.ty t.val.neg
/-- `__mul__`, `__rmul__` with a number (`matrix/matrix.py:38-41, 55-59`). -/
def mulScalar (c : K) (t : TMat K) : Py (TMat K) := wrap t.ty (t.val.smul c)
/-- `__mul__` with a matrix (`matrix/matrix.py:42-44`). -/
def mul (s t : TMat K) : Py (TMat K) :=
  if s.ty = t.ty then
    if s.nc = t.nr then wrap s.ty (s.val.mul t.val) else .error .valueError
  else .error .typeError
/-- `__div__` by a number (`matrix/matrix.py:46-53`). -/
def divScalar [DecidableEq K] (t : TMat K) (c : K) : Py (TMat K) :=
  if c = 0 then .error .zeroDivisionError else wrap t.ty (t.val.smul c⁻¹)
/-- `multiply` (`dense_matrix.py:63-82`, `sparse_matrix.py:161-180`). -/
def multiply (s t : TMat K) : Py (TMat K) :=
  if s.ty = t.ty then
    if s.nr = t.nr ∧ s.nc = t.nc then wrap s.ty (s.val.had t.val) else .error .valueError
  else .error .typeError

/-- `identity` (`dense_matrix.py:113-124`, `sparse_matrix.py:137-149`). -/
def identity (ty : MTy) (n : ℕ) : Py (TMat K) := wrap ty (Mat.identity n)

/-- `scale_rows` (`dense_matrix.py:193-212`, `sparse_matrix.py:249-263` with `array_to_csr_diagonal`,
`utils/py_matrix_utils.py:10-18`). The dense version accepts shapes `(n,1)` and `(n,)`, the sparse one any shape of
the right size. -/
def scaleRows (t : TMat K) (a : Arr K) : Py (TMat K) :=
  match t.ty with
  | .dense =>
    if a.shape = [t.nr, 1] ∨ a.shape = [t.nr] then
      wrap .dense (t.val.scaleRows (fun i => a.data.getD i 0))
    else .error .valueError
  | .sparse =>
    if a.data.length = t.nr then wrap .sparse (t.val.scaleRows (fun i => a.data.getD i 0))
    else .error .valueError

/-- `scale_columns` (`dense_matrix.py:214-231`, `sparse_matrix.py:265-278`). -/
def scaleCols (t : TMat K) (a : Arr K) : Py (TMat K) :=
  match t.ty with
  | .dense =>
    if a.shape = [1, t.nc] ∨ a.shape = [t.nc] then
      wrap .dense (t.val.scaleCols (fun j => a.data.getD j 0))
    else .error .valueError
  | .sparse =>
    if a.data.length = t.nc then wrap .sparse (t.val.scaleCols (fun j => a.data.getD j 0))
    else .error .valueError

/-- `sum()` (`matrix/matrix.py:90-93`). -/
def sumAll (t : TMat K) : K := t.val.total
/-- `sum(0)`: numpy matrix of shape `(1, nc)` (`matrix/matrix.py:90-93`). -/
def sum0 (t : TMat K) : Arr K := ⟨[1, t.nc], (List.range t.nc).map t.val.colSum⟩
/-- `sum(1)`: numpy matrix of shape `(nr, 1)` (`matrix/matrix.py:90-93`). -/
def sum1 (t : TMat K) : Arr K := ⟨[t.nr, 1], (List.range t.nr).map t.val.rowSum⟩

end Arith

section Ordered
variable [Field K] [LinearOrder K]

/-- `assert_positive` (`dense_matrix.py:249-257`, `sparse_matrix.py:345-353`). Sparse: all stored entries are
non-negative iff all entries are (`Csr.assertPositive`). -/
def assertPositive (t : TMat K) : Py Unit :=
  if (List.range t.nr).all (fun i => (List.range t.nc).all (fun j => decide (0 ≤ t.val.get i j))) then .ok ()
  else .error .valueError

/-- `get_non_negative` (`dense_matrix.py:259-270`, `sparse_matrix.py:294-306`): `np.where(x > 0, x, 0)`. -/
def getNonNegative (t : TMat K) : Py (TMat K) :=
  wrap t.ty (t.val.map (fun x => if 0 < x then x else 0))

/-- `to_non_negative` (`dense_matrix.py:272-280`, `sparse_matrix.py:308-316`): new object state. -/
def toNonNegative (t : TMat K) : TMat K :=
  ⟨t.ty, t.val.map (fun x => if 0 < x then x else 0)⟩

/-- `to_ones` (`dense_matrix.py:282-291`, `sparse_matrix.py:318-327`): new object state. -/
def toOnes (t : TMat K) : TMat K :=
  ⟨t.ty, t.val.map (fun x => if 0 < x then 1 else 0)⟩

/-- `remove_small_values` (`dense_matrix.py:293-306`, `sparse_matrix.py:329-343`). The sparse version only looks at
stored entries, so an implicit zero stays zero. -/
def removeSmallValues (t : TMat K) (eps : K) : Py (TMat K) :=
  wrap t.ty (t.val.map (fun x => if eps < x then x else 0))

/-- Number of entries satisfying a predicate. -/
def countEntries (A : Mat K) (p : K → Bool) : ℕ :=
  ∑ i ∈ range A.nr, ∑ j ∈ range A.nc, if p (A.get i j) then 1 else 0

/-- `is_mostly_positive` (`dense_matrix.py:308-314`, `sparse_matrix.py:355-361`). Dense: positive entries against half
of *all* entries; sparse: against half of the stored ones (here: a matrix that stores exactly its non-zeros; the
general case is `Csr.isMostlyPositive`). `/` is Python-2 integer division. -/
def isMostlyPositive (t : TMat K) : Bool :=
  match t.ty with
  | .dense => decide (countEntries t.val (fun x => decide (0 < x)) > (t.nr * t.nc) / 2)
  | .sparse => decide (countEntries t.val (fun x => decide (0 < x)) >
      countEntries t.val (fun x => decide (x ≠ 0)) / 2)

end Ordered

/-! ### Methods that need square roots and logarithms: entries in `ℝ`. -/
section Real
noncomputable section

/-- `norm()` of the whole matrix (`dense_matrix.py:329-344`, `sparse_matrix.py:377-392`). -/
def norm (t : TMat ℝ) : ℝ := Real.sqrt (∑ i ∈ range t.nr, ∑ j ∈ range t.nc, t.val.get i j ^ 2)
/-- `norm(0)` (`dense_matrix.py:344`, `sparse_matrix.py:392`). -/
def norm0 (t : TMat ℝ) : Arr ℝ :=
  ⟨[1, t.nc], (List.range t.nc).map (fun j => Real.sqrt ((t.val.had t.val).colSum j))⟩
/-- `norm(1)` (`dense_matrix.py:344`, `sparse_matrix.py:392`). -/
def norm1 (t : TMat ℝ) : Arr ℝ :=
  ⟨[t.nr, 1], (List.range t.nr).map (fun i => Real.sqrt ((t.val.had t.val).rowSum i))⟩

/-- `plog` (`dense_matrix.py:233-246`, `sparse_matrix.py:280-292`): new object state. Dense: entries `< 1` become `1`
before the logarithm. Sparse: *stored* entries `<= 1` become `1`; implicit zeros are untouched. -/
def plog (t : TMat ℝ) : TMat ℝ :=
  match t.ty with
  | .dense => ⟨.dense, t.val.map (fun x => Real.log (if x < 1 then 1 else x))⟩
  | .sparse => ⟨.sparse, t.val.map (fun x => if x = 0 then 0 else Real.log (if x ≤ 1 then 1 else x))⟩

/-- `all_close` (`dense_matrix.py:316-327`: `np.allclose(a, b)` is `|a-b| <= 1e-8 + 1e-5*|b|` everywhere;
`sparse_matrix.py:363-375`: the same test on the stored differences against zero). Shapes are assumed equal. -/
def allClose (s t : TMat ℝ) : Bool :=
  match s.ty with
  | .dense => (List.range s.nr).all (fun i => (List.range s.nc).all (fun j =>
      decide (|s.val.get i j - t.val.get i j| ≤ 1/100000000 + 1/100000 * |t.val.get i j|)))
  | .sparse => (List.range s.nr).all (fun i => (List.range s.nc).all (fun j =>
      decide (|s.val.get i j - t.val.get i j| ≤ 1/100000000)))

end
end Real

end TMat

/-- `nonzero_invert` (`utils/py_matrix_utils.py:23-33`). -/
def nonzeroInvert {K : Type} [Field K] [DecidableEq K] (a : Arr K) : Arr K :=
  ⟨a.shape, a.data.map (fun x => if x ≠ 0 then 1 / x else x)⟩

/-- `col_sum * total` etc.: array times a number. -/
def Arr.scale {K : Type} [Mul K] (a : Arr K) (c : K) : Arr K := ⟨a.shape, a.data.map (· * c)⟩

/-- `np.multiply(a, b)` for arrays of the same shape. -/
def Arr.mul {K : Type} [Mul K] (a b : Arr K) : Arr K := ⟨a.shape, List.zipWith (· * ·) a.data b.data⟩

/-- `a.sum()` of an array. -/
def Arr.sum {K : Type} [Add K] [Zero K] (a : Arr K) : K := a.data.sum

/-- `sorted_permutation(norm_function, axis)` (`matrix/matrix.py:95-123`), given the array of norms. -/
def sortedPermutation {K : Type} [Zero K] [LE K] [DecidableLE K] (norms : Arr K) : List ℕ :=
  sortedDesc norms.data.length (fun i => norms.data.getD i 0)

end Dissect
