import Mathlib.Algebra.BigOperators.Ring.Finset
import Mathlib.Algebra.Order.BigOperators.Ring.Finset
import Mathlib.Tactic.Ring

/-!
# Mathematical matrices

`Mat K` is the mathematical content of a `numpy.matrix` / `scipy.sparse.csr_matrix`: a shape and the entries.
Entries outside the shape are `0` (field `oob`), so that Lean equality is equality of shape and entries.
The operations here are the *mathematical* operations which numpy/scipy document; the repository's own wrappers (type
checks, shape checks, error cases) are in `Model/Matrix.lean`.
-/

namespace Dissect
open Finset

/-- Shape + entries. -/
structure Mat (K : Type) [Zero K] where
  nr : ℕ
  nc : ℕ
  get : ℕ → ℕ → K
  oob : ∀ i j, ¬ (i < nr ∧ j < nc) → get i j = 0

namespace Mat
variable {K : Type}

section Zero
variable [Zero K]

theorem ext' {A B : Mat K} (hr : A.nr = B.nr) (hc : A.nc = B.nc)
    (h : ∀ i j, i < A.nr → j < A.nc → A.get i j = B.get i j) : A = B := by
  have hg : A.get = B.get := by
    funext i j
    by_cases hb : i < A.nr ∧ j < A.nc
    · exact h i j hb.1 hb.2
    · rw [A.oob i j hb, B.oob i j (by rw [← hr, ← hc]; exact hb)]
  cases A; cases B; simp_all

theorem ext_get {A B : Mat K} (hr : A.nr = B.nr) (hc : A.nc = B.nc)
    (h : ∀ i j, A.get i j = B.get i j) : A = B :=
  ext' hr hc (fun i j _ _ => h i j)

theorem get_row_oob (A : Mat K) {i : ℕ} (j : ℕ) (h : A.nr ≤ i) : A.get i j = 0 :=
  A.oob i j (by omega)

theorem get_col_oob (A : Mat K) (i : ℕ) {j : ℕ} (h : A.nc ≤ j) : A.get i j = 0 :=
  A.oob i j (by omega)

/-- Matrix of a given shape from an entry function. -/
def of (nr nc : ℕ) (f : ℕ → ℕ → K) : Mat K where
  nr := nr
  nc := nc
  get i j := if i < nr ∧ j < nc then f i j else 0
  oob i j h := by simp [h]

@[simp] theorem of_nr (nr nc : ℕ) (f : ℕ → ℕ → K) : (of nr nc f).nr = nr := rfl
@[simp] theorem of_nc (nr nc : ℕ) (f : ℕ → ℕ → K) : (of nr nc f).nc = nc := rfl
theorem of_get (nr nc : ℕ) (f : ℕ → ℕ → K) (i j : ℕ) :
    (of nr nc f).get i j = if i < nr ∧ j < nc then f i j else 0 := rfl
theorem of_get_lt {nr nc : ℕ} {f : ℕ → ℕ → K} {i j : ℕ} (hi : i < nr) (hj : j < nc) :
    (of nr nc f).get i j = f i j := by simp [of_get, hi, hj]

/-- `numpy.transpose`. -/
def transpose (A : Mat K) : Mat K where
  nr := A.nc
  nc := A.nr
  get i j := A.get j i
  oob i j h := A.oob j i (by tauto)

@[simp] theorem transpose_nr (A : Mat K) : A.transpose.nr = A.nc := rfl
@[simp] theorem transpose_nc (A : Mat K) : A.transpose.nc = A.nr := rfl
@[simp] theorem transpose_get (A : Mat K) (i j : ℕ) : A.transpose.get i j = A.get j i := rfl
@[simp] theorem transpose_transpose (A : Mat K) : A.transpose.transpose = A := rfl

/-- Fancy row indexing `m[rows, :]` with in-range non-negative indices. -/
def selRows (A : Mat K) (rows : List ℕ) : Mat K where
  nr := rows.length
  nc := A.nc
  get i j := match rows[i]? with
    | some r => A.get r j
    | none => 0
  oob i j h := by
    by_cases hi : i < rows.length
    · have hj : A.nc ≤ j := by omega
      cases hr : rows[i]? with
      | none => rfl
      | some r => exact A.get_col_oob r hj
    · rw [List.getElem?_eq_none (by omega)]

@[simp] theorem selRows_nr (A : Mat K) (rows : List ℕ) : (A.selRows rows).nr = rows.length := rfl
@[simp] theorem selRows_nc (A : Mat K) (rows : List ℕ) : (A.selRows rows).nc = A.nc := rfl
theorem selRows_get (A : Mat K) (rows : List ℕ) (i j : ℕ) :
    (A.selRows rows).get i j = match rows[i]? with
      | some r => A.get r j
      | none => 0 := rfl
theorem selRows_get_some {A : Mat K} {rows : List ℕ} {i r : ℕ} (h : rows[i]? = some r) (j : ℕ) :
    (A.selRows rows).get i j = A.get r j := by rw [selRows_get, h]

/-- Fancy column indexing `m[:, cols]`. -/
def selCols (A : Mat K) (cols : List ℕ) : Mat K := (A.transpose.selRows cols).transpose

@[simp] theorem selCols_nr (A : Mat K) (cols : List ℕ) : (A.selCols cols).nr = A.nr := rfl
@[simp] theorem selCols_nc (A : Mat K) (cols : List ℕ) : (A.selCols cols).nc = cols.length := rfl
theorem selCols_get (A : Mat K) (cols : List ℕ) (i j : ℕ) :
    (A.selCols cols).get i j = match cols[j]? with
      | some c => A.get i c
      | none => 0 := rfl
theorem selCols_get_some {A : Mat K} {cols : List ℕ} {j c : ℕ} (h : cols[j]? = some c) (i : ℕ) :
    (A.selCols cols).get i j = A.get i c := by rw [selCols_get, h]

/-- One row `m[i, :]` as a `1 × nc` matrix. -/
def row (A : Mat K) (i : ℕ) : Mat K := A.selRows [i]

@[simp] theorem row_nr (A : Mat K) (i : ℕ) : (A.row i).nr = 1 := rfl
@[simp] theorem row_nc (A : Mat K) (i : ℕ) : (A.row i).nc = A.nc := rfl
theorem row_get_zero (A : Mat K) (i j : ℕ) : (A.row i).get 0 j = A.get i j := rfl

/-- `numpy.vstack((a, b))`, for matrices with the same number of columns. -/
def vstack (A B : Mat K) : Mat K :=
  of (A.nr + B.nr) A.nc (fun i j => if i < A.nr then A.get i j else B.get (i - A.nr) j)

@[simp] theorem vstack_nr (A B : Mat K) : (A.vstack B).nr = A.nr + B.nr := rfl
@[simp] theorem vstack_nc (A B : Mat K) : (A.vstack B).nc = A.nc := rfl
theorem vstack_get {A B : Mat K} (h : A.nc = B.nc) (i j : ℕ) :
    (A.vstack B).get i j = if i < A.nr then A.get i j else B.get (i - A.nr) j := by
  unfold vstack
  rw [of_get]
  split
  · rfl
  · rename_i hb
    split
    · exact (A.oob i j (by omega)).symm
    · exact (B.oob _ j (by omega)).symm

/-- `numpy.hstack((a, b))`, for matrices with the same number of rows. -/
def hstack (A B : Mat K) : Mat K := (A.transpose.vstack B.transpose).transpose

@[simp] theorem hstack_nr (A B : Mat K) : (A.hstack B).nr = A.nr := rfl
@[simp] theorem hstack_nc (A B : Mat K) : (A.hstack B).nc = A.nc + B.nc := rfl
theorem hstack_get {A B : Mat K} (h : A.nr = B.nr) (i j : ℕ) :
    (A.hstack B).get i j = if j < A.nc then A.get i j else B.get i (j - A.nc) := by
  unfold hstack
  rw [transpose_get, vstack_get (by simpa using h)]
  rfl

/-- Row-major reshape (numpy default order `C`). -/
def reshape (A : Mat K) (nr nc : ℕ) : Mat K :=
  of nr nc (fun i j => A.get ((i * nc + j) / A.nc) ((i * nc + j) % A.nc))

@[simp] theorem reshape_nr (A : Mat K) (m n : ℕ) : (A.reshape m n).nr = m := rfl
@[simp] theorem reshape_nc (A : Mat K) (m n : ℕ) : (A.reshape m n).nc = n := rfl

/-- Constant matrix `np.ones((nr, nc)) * v`. -/
def const (nr nc : ℕ) (v : K) : Mat K := of nr nc (fun _ _ => v)

/-- Element-wise map (the function is only applied inside the shape). -/
def map (f : K → K) (A : Mat K) : Mat K := of A.nr A.nc (fun i j => f (A.get i j))

@[simp] theorem map_nr (f : K → K) (A : Mat K) : (A.map f).nr = A.nr := rfl
@[simp] theorem map_nc (f : K → K) (A : Mat K) : (A.map f).nc = A.nc := rfl
theorem map_get {f : K → K} (hf : f 0 = 0) (A : Mat K) (i j : ℕ) :
    (A.map f).get i j = f (A.get i j) := by
  unfold map
  rw [of_get]
  split
  · rfl
  · rename_i hb; rw [A.oob i j hb, hf]

theorem map_get_lt (f : K → K) (A : Mat K) {i j : ℕ} (hi : i < A.nr) (hj : j < A.nc) :
    (A.map f).get i j = f (A.get i j) := by simp [map, of_get, hi, hj]

end Zero

section Semiring
variable [Semiring K]

/-- Identity matrix. -/
def identity (n : ℕ) : Mat K := of n n (fun i j => if i = j then 1 else 0)

/-- Sum of row `i` (an entry of `mat.sum(1)`). -/
def rowSum (A : Mat K) (i : ℕ) : K := ∑ j ∈ range A.nc, A.get i j

/-- Sum of column `j` (an entry of `mat.sum(0)`). -/
def colSum (A : Mat K) (j : ℕ) : K := ∑ i ∈ range A.nr, A.get i j

/-- Sum of all entries (`mat.sum()`). -/
def total (A : Mat K) : K := ∑ i ∈ range A.nr, ∑ j ∈ range A.nc, A.get i j

/-- Matrix product. -/
def mul (A B : Mat K) : Mat K where
  nr := A.nr
  nc := B.nc
  get i j := ∑ k ∈ range A.nc, A.get i k * B.get k j
  oob i j h := by
    refine Finset.sum_eq_zero (fun k _ => ?_)
    by_cases hi : i < A.nr
    · rw [B.get_col_oob k (by omega), mul_zero]
    · rw [A.get_row_oob k (by omega), zero_mul]

@[simp] theorem mul_nr (A B : Mat K) : (A.mul B).nr = A.nr := rfl
@[simp] theorem mul_nc (A B : Mat K) : (A.mul B).nc = B.nc := rfl
@[simp] theorem mul_get (A B : Mat K) (i j : ℕ) :
    (A.mul B).get i j = ∑ k ∈ range A.nc, A.get i k * B.get k j := rfl

/-- Multiplication by a scalar. -/
def smul (c : K) (A : Mat K) : Mat K where
  nr := A.nr
  nc := A.nc
  get i j := c * A.get i j
  oob i j h := by rw [A.oob i j h, mul_zero]

@[simp] theorem smul_nr (c : K) (A : Mat K) : (A.smul c).nr = A.nr := rfl
@[simp] theorem smul_nc (c : K) (A : Mat K) : (A.smul c).nc = A.nc := rfl
@[simp] theorem smul_get (c : K) (A : Mat K) (i j : ℕ) : (A.smul c).get i j = c * A.get i j := rfl

/-- Component-wise product, for matrices of the same shape. -/
def had (A B : Mat K) : Mat K where
  nr := A.nr
  nc := A.nc
  get i j := A.get i j * B.get i j
  oob i j h := by rw [A.oob i j h, zero_mul]

@[simp] theorem had_nr (A B : Mat K) : (A.had B).nr = A.nr := rfl
@[simp] theorem had_nc (A B : Mat K) : (A.had B).nc = A.nc := rfl
@[simp] theorem had_get (A B : Mat K) (i j : ℕ) : (A.had B).get i j = A.get i j * B.get i j := rfl

/-- Row `i` multiplied by `f i`. -/
def scaleRows (A : Mat K) (f : ℕ → K) : Mat K where
  nr := A.nr
  nc := A.nc
  get i j := f i * A.get i j
  oob i j h := by rw [A.oob i j h, mul_zero]

@[simp] theorem scaleRows_nr (A : Mat K) (f : ℕ → K) : (A.scaleRows f).nr = A.nr := rfl
@[simp] theorem scaleRows_nc (A : Mat K) (f : ℕ → K) : (A.scaleRows f).nc = A.nc := rfl
@[simp] theorem scaleRows_get (A : Mat K) (f : ℕ → K) (i j : ℕ) :
    (A.scaleRows f).get i j = f i * A.get i j := rfl

/-- Column `j` multiplied by `f j`. -/
def scaleCols (A : Mat K) (f : ℕ → K) : Mat K where
  nr := A.nr
  nc := A.nc
  get i j := A.get i j * f j
  oob i j h := by rw [A.oob i j h, zero_mul]

@[simp] theorem scaleCols_nr (A : Mat K) (f : ℕ → K) : (A.scaleCols f).nr = A.nr := rfl
@[simp] theorem scaleCols_nc (A : Mat K) (f : ℕ → K) : (A.scaleCols f).nc = A.nc := rfl
@[simp] theorem scaleCols_get (A : Mat K) (f : ℕ → K) (i j : ℕ) :
    (A.scaleCols f).get i j = A.get i j * f j := rfl

/-- Matrix sum, for matrices of the same shape. -/
def add (A B : Mat K) : Mat K := of A.nr A.nc (fun i j => A.get i j + B.get i j)

@[simp] theorem add_nr (A B : Mat K) : (A.add B).nr = A.nr := rfl
@[simp] theorem add_nc (A B : Mat K) : (A.add B).nc = A.nc := rfl
theorem add_get {A B : Mat K} (hr : A.nr = B.nr) (hc : A.nc = B.nc) (i j : ℕ) :
    (A.add B).get i j = A.get i j + B.get i j := by
  unfold add
  rw [of_get]
  split
  · rfl
  · rename_i hb
    rw [A.oob i j hb, B.oob i j (by rw [← hr, ← hc]; exact hb), add_zero]

end Semiring

section Ring
variable [Ring K]

/-- `-m` -/
def neg (A : Mat K) : Mat K where
  nr := A.nr
  nc := A.nc
  get i j := - A.get i j
  oob i j h := by rw [A.oob i j h, neg_zero]

@[simp] theorem neg_nr (A : Mat K) : A.neg.nr = A.nr := rfl
@[simp] theorem neg_nc (A : Mat K) : A.neg.nc = A.nc := rfl
@[simp] theorem neg_get (A : Mat K) (i j : ℕ) : A.neg.get i j = - A.get i j := rfl

/-- Matrix difference, for matrices of the same shape. -/
def sub (A B : Mat K) : Mat K := of A.nr A.nc (fun i j => A.get i j - B.get i j)

@[simp] theorem sub_nr (A B : Mat K) : (A.sub B).nr = A.nr := rfl
@[simp] theorem sub_nc (A B : Mat K) : (A.sub B).nc = A.nc := rfl
theorem sub_get {A B : Mat K} (hr : A.nr = B.nr) (hc : A.nc = B.nc) (i j : ℕ) :
    (A.sub B).get i j = A.get i j - B.get i j := by
  unfold sub
  rw [of_get]
  split
  · rfl
  · rename_i hb
    rw [A.oob i j hb, B.oob i j (by rw [← hr, ← hc]; exact hb), sub_zero]

end Ring

end Mat
end Dissect
