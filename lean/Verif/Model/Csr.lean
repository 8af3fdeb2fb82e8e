import Verif.Model.Matrix

/-!
# The stored arrays of a `SparseMatrix`

`Csr K` holds the three arrays of a `scipy.sparse.csr_matrix`.  The methods of `SparseMatrix` that read or write these
arrays directly are modelled on the arrays; `toMat` is the matrix they denote.
-/

namespace Dissect
open Finset

/-- `scipy.sparse.csr_matrix`: `data`, `indices`, `indptr` and `shape`. -/
structure Csr (K : Type) where
  nr : ℕ
  nc : ℕ
  data : List K
  indices : List ℕ
  indptr : List ℕ

/-- `scipy.sparse.coo_matrix`: stored triples `(row, col, value)` and `shape`. -/
structure Coo (K : Type) where
  nr : ℕ
  nc : ℕ
  entries : List (ℕ × ℕ × K)

namespace Csr
variable {K : Type}

/-- `indptr[i]` -/
def ptr (c : Csr K) (i : ℕ) : ℕ := c.indptr.getD i 0

/-- Stored `(column, value)` pairs, in storage order. -/
def stored (c : Csr K) : List (ℕ × K) := c.indices.zip c.data

/-- The stored pairs of row `i`: positions `indptr[i] .. indptr[i+1]`. -/
def rowList (c : Csr K) (i : ℕ) : List (ℕ × K) :=
  (c.stored.drop (c.ptr i)).take (c.ptr (i + 1) - c.ptr i)

/-- Value of column `j` in a list of stored pairs (scipy adds up repeated columns). -/
def valueAt [AddMonoid K] (l : List (ℕ × K)) (j : ℕ) : K :=
  ((l.filter (fun e => decide (e.1 = j))).map Prod.snd).sum

/-- The matrix denoted by the arrays (`todense`). -/
def toMat [AddMonoid K] (c : Csr K) : Mat K :=
  Mat.of c.nr c.nc (fun i j => valueAt (c.rowList i) j)

/-- What scipy guarantees about a `csr_matrix` built by the code under study (canonical: no repeated column in a
row). -/
structure WF (c : Csr K) : Prop where
  len_ptr : c.indptr.length = c.nr + 1
  ptr_zero : c.ptr 0 = 0
  mono : ∀ i, i < c.nr → c.ptr i ≤ c.ptr (i + 1)
  ptr_last : c.ptr c.nr = c.data.length
  len_idx : c.indices.length = c.data.length
  idx_lt : ∀ j ∈ c.indices, j < c.nc
  nodup : ∀ i, i < c.nr → ((c.rowList i).map Prod.fst).Nodup

/-- `__getitem__` with a non-negative integer row (`sparse_matrix.py:64-87`, inner function `__get_row`, lines 70-77):
slices of `data` and `indices`, `indptr = [0, end - start]`. Out-of-range rows raise `IndexError`
(`indptr[row + 1]`). -/
def getRow (c : Csr K) (row : ℕ) : Py (Csr K) :=
  match c.indptr[row]?, c.indptr[row + 1]? with
  | some start, some stop => .ok
      { nr := 1
        nc := c.nc
        data := (c.data.drop start).take (stop - start)
        indices := (c.indices.drop start).take (stop - start)
        indptr := [0, stop - start] }
  | _, _ => .error .indexError

/-- `self.mat.data = f(self.mat.data)`. -/
def mapData (f : K → K) (c : Csr K) : Csr K := { c with data := c.data.map f }

/-- Build the arrays from the per-row lists. -/
def ofRows (nc : ℕ) (rows : List (List (ℕ × K))) : Csr K where
  nr := rows.length
  nc := nc
  data := rows.flatten.map Prod.snd
  indices := rows.flatten.map Prod.fst
  indptr := (rows.map List.length).scanl (· + ·) 0

/-- `eliminate_zeros()` of scipy: rebuild the arrays without the stored zeros. -/
def eliminateZeros [Zero K] [DecidableEq K] (c : Csr K) : Csr K :=
  ofRows c.nc ((List.range c.nr).map (fun i => (c.rowList i).filter (fun e => decide (e.2 ≠ 0))))

section Ordered
variable [Field K] [LinearOrder K]

/-- `get_non_negative` (`sparse_matrix.py:294-306`). -/
def getNonNegative (c : Csr K) : Csr K := (c.mapData (fun x => if x > 0 then x else 0)).eliminateZeros
/-- `to_non_negative` (`sparse_matrix.py:308-316`): `clip(0)` in place. -/
def toNonNegative (c : Csr K) : Csr K := (c.mapData (fun x => if x < 0 then 0 else x)).eliminateZeros
/-- `to_ones` (`sparse_matrix.py:318-327`). -/
def toOnes (c : Csr K) : Csr K := (c.mapData (fun x => if x > 0 then 1 else 0)).eliminateZeros
/-- `remove_small_values` (`sparse_matrix.py:329-343`). -/
def removeSmallValues (eps : K) (c : Csr K) : Csr K :=
  (c.mapData (fun x => if x > eps then x else 0)).eliminateZeros
/-- `assert_positive` (`sparse_matrix.py:345-353`). -/
def assertPositive (c : Csr K) : Py Unit :=
  if c.data.all (fun x => decide (x ≥ 0)) then .ok () else .error .valueError
/-- `is_mostly_positive` (`sparse_matrix.py:355-361`). -/
def isMostlyPositive (c : Csr K) : Bool :=
  decide ((c.data.filter (fun x => decide (x > 0))).length > c.data.length / 2)

end Ordered

noncomputable section
/-- `plog` (`sparse_matrix.py:280-292`). -/
def plog (c : Csr ℝ) : Csr ℝ :=
  ((c.mapData (fun x => if x ≤ 1 then 1 else x)).mapData Real.log).eliminateZeros
/-- `norm()` (`sparse_matrix.py:389-390`): Euclidean norm of the stored values. -/
def norm (c : Csr ℝ) : ℝ := Real.sqrt ((c.data.map (fun x => x ^ 2)).sum)
end

/-- `tocoo()`: row number, column and value of every stored entry, in storage order. -/
def toCoo (c : Csr K) : Coo K :=
  ⟨c.nr, c.nc, (List.range c.nr).flatMap (fun i => (c.rowList i).map (fun e => (i, e.1, e.2)))⟩

end Csr

namespace Coo
variable {K : Type}

/-- The matrix denoted by the triples: repeated cells are added (`csr_matrix((data, (row, col)))`). -/
def toMat [AddMonoid K] (c : Coo K) : Mat K :=
  Mat.of c.nr c.nc (fun i j =>
    ((c.entries.filter (fun e => decide (e.1 = i ∧ e.2.1 = j))).map (fun e => e.2.2)).sum)

/-- The coordinate arithmetic of `SparseMatrix.reshape` (`sparse_matrix.py:126-132`), in exact integers:
`linear_pos = row * no_cols + col; row' = linear_pos // new_no_cols; col' = linear_pos - row' * new_no_cols`. -/
def newCoord (nc newNc row col : ℕ) : ℕ × ℕ :=
  let lin := row * nc + col
  let r := lin / newNc
  (r, lin - r * newNc)

/-- `SparseMatrix.reshape` (`sparse_matrix.py:111-135`) on the triples of `tocoo`; the result is handed to
`csr_matrix((data, (row, col)), shape=new_shape)`. -/
def reshape (c : Coo K) (newNr newNc : ℕ) : Py (Coo K) :=
  if c.nr * c.nc ≠ newNr * newNc then .error .valueError
  else .ok ⟨newNr, newNc, c.entries.map (fun e =>
    let rc := newCoord c.nc newNc e.1 e.2.1
    (rc.1, rc.2, e.2.2))⟩

/-- The same arithmetic in `w`-bit two's complement words, as numpy computes it on `int32` (`w = 32`) or `int64`
(`w = 64`) arrays (`sparse_matrix.py:126-132`). -/
def newCoordBV {w : ℕ} (nc newNc row col : BitVec w) : BitVec w × BitVec w :=
  let lin := row * nc + col
  let r := lin.sdiv newNc
  (r, lin - r * newNc)

/-- Width selection of `sparse_matrix.py:126`. -/
def reshapeWidth (nr nc : ℕ) : ℕ := if nr * nc ≥ 2 ^ 31 - 1 then 64 else 32

end Coo
end Dissect
