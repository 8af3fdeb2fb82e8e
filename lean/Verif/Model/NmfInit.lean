import Verif.Model.Operation

/-! # The other two initialisations of `Nmf` (`transformation/dim_reduction/nmf.py:41-55, 80-136`)

`Nmf.apply` calls `v_col_init` (`Model/Operation.lean`); `random_init` and `nndsvd_init` are public methods of the
same class with the same contract: a pair `(w, h)` of starting factors for `Linalg.nmf`. -/

namespace Dissect
open Finset
noncomputable section

/-- `nary_hstack` (`dense_matrix.py:175-189`, `sparse_matrix.py:233-247`) called on the class `ty`; same
simplification as `TMat.naryVstack`: matrices of the other class are modelled as `TypeError`. -/
def TMat.naryHstack {K : Type} [Zero K] (ty : MTy) : List (TMat K) → Py (TMat K)
  | [] => .error .valueError
  | t :: ts =>
    if (t :: ts).all (fun u => decide (u.ty = ty)) then
      if ts.all (fun u => decide (u.nr = t.nr)) then
        TMat.wrap ty (ts.foldl (fun acc u => acc.hstack u.val) t.val)
      else .error .valueError
    else .error .typeError

/-- `Nmf.random_init` (`nmf.py:41-55`): `w = m[:, rndcol]`, `h = m[rndrow, :]`; the drawn numbers are arguments. -/
def randomInit (m : TMat ℝ) (rndcol rndrow : List ℕ) : Py (TMat ℝ × TMat ℝ) := do
  let w ← m.getCols rndcol
  let h ← m.getRows (rndrow.map Int.ofNat)
  return (w, h)

/-- `math.sqrt` (`nmf.py:105-106, 124-128`): `ValueError` on a negative number. -/
def pySqrt (x : ℝ) : Py ℝ := if x < 0 then .error .valueError else .ok (Real.sqrt x)

/-- `matrix_abs` (`nmf.py:81-84`). -/
def matrixAbs (m : TMat ℝ) : Py (TMat ℝ) := do
  let p ← m.getNonNegative
  let n ← p.sub m
  p.add n

/-- `padd_zeros(matrix_, 1, thickness)` (`nmf.py:86-93`). -/
def paddZeroCols (m : TMat ℝ) (thickness : ℕ) : Py (TMat ℝ) := do
  let z ← TMat.ofNumpy m.ty (Mat.const m.nr thickness 0)
  m.hstack z

/-- `padd_zeros(matrix_, 0, thickness)` (`nmf.py:86-93`). -/
def paddZeroRows (m : TMat ℝ) (thickness : ℕ) : Py (TMat ℝ) := do
  let z ← TMat.ofNumpy m.ty (Mat.const thickness m.nc 0)
  m.vstack z

/-- `s[i]` of a one-dimensional array. -/
def arrGet (s : Arr ℝ) (i : ℕ) : Py ℝ :=
  match s.data[i]? with
  | some x => .ok x
  | none => .error .indexError

/-- `w[0]`, `h[0]` (`nmf.py:103-104`). -/
def nndsvdFirst (u : TMat ℝ) (s : Arr ℝ) (vt : TMat ℝ) : Py (TMat ℝ × TMat ℝ) := do
  let s0 ← arrGet s 0
  let r ← pySqrt s0
  let uc ← u.getCols [0]
  let ua ← matrixAbs uc
  let w ← ua.mulScalar r
  let vr ← vt.getRow 0
  let va ← matrixAbs vr
  let h ← va.mulScalar r
  return (w, h)

/-- `sqrt(si * term) * part / n` (`nmf.py:121-122, 124-125`): product first, then the quotient. -/
def nndsvdScale (si term : ℝ) (part : TMat ℝ) (n : ℝ) : Py (TMat ℝ) := do
  let r ← pySqrt (si * term)
  let a ← part.mulScalar r
  a.divScalar n

/-- The comparison of the two sections (`nmf.py:119-125`). -/
def nndsvdPick (si : ℝ) (uup uun vvp vvn : TMat ℝ) : Py (TMat ℝ × TMat ℝ) :=
  if uun.norm * vvn.norm ≤ uup.norm * vvp.norm then do
    let w ← nndsvdScale si (uup.norm * vvp.norm) uup uup.norm
    let h ← nndsvdScale si (uup.norm * vvp.norm) vvp vvp.norm
    return (w, h)
  else do
    let w ← nndsvdScale si (uun.norm * vvn.norm) uun uun.norm
    let h ← nndsvdScale si (uun.norm * vvn.norm) vvn vvn.norm
    return (w, h)

/-- One pass of the loop (`nmf.py:106-125`). -/
def nndsvdStep (u : TMat ℝ) (s : Arr ℝ) (vt : TMat ℝ) (i : ℕ) : Py (TMat ℝ × TMat ℝ) := do
  let uu ← u.getCols [i]
  let vv ← vt.getRow i
  let uup ← uu.getNonNegative
  let uun ← uup.sub uu
  let vvp ← vv.getNonNegative
  let vvn ← vvp.sub vv
  let si ← arrGet s i
  nndsvdPick si uup uun vvp vvn

/-- `w[0..i]`, `h[0..i]` (`nmf.py:103-125`). -/
def nndsvdList (u : TMat ℝ) (s : Arr ℝ) (vt : TMat ℝ) : ℕ → Py (List (TMat ℝ × TMat ℝ))
  | 0 => do
    let e ← nndsvdFirst u s vt
    return [e]
  | i + 1 => do
    let front ← nndsvdList u s vt i
    let e ← nndsvdStep u s vt (i + 1)
    return front ++ [e]

/-- `if (rank < k): padd_zeros` (`nmf.py:133-135`). -/
def nndsvdPad (w h : TMat ℝ) (rank k : ℕ) : Py (TMat ℝ × TMat ℝ) :=
  if rank < k then do
    let w' ← paddZeroCols w (k - rank)
    let h' ← paddZeroRows h (k - rank)
    return (w', h')
  else .ok (w, h)

/-- `Nmf.nndsvd_init` (`nmf.py:80-136`). The results of the two `remove_small_values` calls (`nmf.py:130-131`) are
thrown away by the code. -/
def nndsvdInit (env : Env) (m : TMat ℝ) (k : ℕ) : Py (TMat ℝ × TMat ℝ) := do
  let (u, s, v) ← svd env m k
  let rank := u.nc
  let vt ← v.transpose
  let l ← nndsvdList u s vt (rank - 1)
  let w ← TMat.naryHstack m.ty (l.map Prod.fst)
  let h ← TMat.naryVstack m.ty (l.map Prod.snd)
  let _ ← w.removeSmallValues (1 / 10 ^ 10)
  let _ ← h.removeSmallValues (1 / 10 ^ 10)
  nndsvdPad w h rank k

end
end Dissect
