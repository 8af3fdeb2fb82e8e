import Verif.Model.MatrixUtils

/-!
# `matrix/linalg.py`

The numerical back ends (numpy `svd`, `pinv`, `lstsq`, `sparsesvd`) are parameters, collected in `Env`; each of them may
raise an exception (numpy: `LinAlgError` when the iteration does not converge).
Theorems state what they need about the result of the concrete call.
-/

namespace Dissect
open Finset
noncomputable section

/-- The external numerical routines. -/
structure Env where
  /-- `np.linalg.svd(m, False, True)`: `u, s, vt`, may raise `LinAlgError` (`linalg.py:243`). -/
  npSvd : Mat ℝ → Py (Mat ℝ × List ℝ × Mat ℝ)
  /-- `sparsesvd(m.tocsc(), k)`: `ut, s, vt`, may raise (`linalg.py:217`). -/
  sparseSvd : Mat ℝ → ℕ → Py (Mat ℝ × List ℝ × Mat ℝ)
  /-- `np.linalg.pinv(m)`, may raise `LinAlgError` (`linalg.py:406, 411`). -/
  npPinv : Mat ℝ → Py (Mat ℝ)
  /-- `np.linalg.lstsq(a, b, -1)[0]`, may raise `LinAlgError` (`linalg.py:190`). -/
  npLstsq : Mat ℝ → Mat ℝ → Py (Mat ℝ)

/-- First `n` columns `m[:, 0:n]`. -/
def Mat.takeCols (A : Mat ℝ) (n : ℕ) : Mat ℝ := A.selCols ((List.range A.nc).take n)

/-- First `n` rows `m[0:n, :]`. -/
def Mat.takeRows (A : Mat ℝ) (n : ℕ) : Mat ℝ := A.selRows ((List.range A.nr).take n)

/-- `_SVD_TOL` (`linalg.py:45`). -/
def svdTol : ℝ := 1 / 10 ^ 12

/-- Sign normalisation (`linalg.py:233-237`, `253-257`): negate both factors unless `u` is mostly positive. -/
def signFix (u v : TMat ℝ) : Py (TMat ℝ × TMat ℝ) :=
  if u.isMostlyPositive then .ok (u, v)
  else do
    let u' ← u.neg
    let v' ← v.neg
    return (u', v')

/-- `_dense_svd` (`linalg.py:239-257`). `s` is returned as an array of shape `(n,)`. -/
def denseSvd (env : Env) (m : TMat ℝ) (k : ℕ) : Py (TMat ℝ × Arr ℝ × TMat ℝ) := do
  let (u, s, vt) ← env.npSvd m.val
  let rank := (s.filter (fun x => decide (svdTol < x))).length
  let noCols := min (min u.nc k) rank
  let u' ← TMat.ofNumpy .dense (u.takeCols noCols)
  let s' := s.take noCols
  let v' ← TMat.ofNumpy .dense (vt.takeRows noCols).transpose
  let (u'', v'') ← signFix u' v'
  return (u'', ⟨[s'.length], s'⟩, v'')

/-- `_sparse_svd` (`linalg.py:196-237`). -/
def sparseSvd (env : Env) (m : TMat ℝ) (k : ℕ) : Py (TMat ℝ × Arr ℝ × TMat ℝ) := do
  let (ut, s, vt) ← env.sparseSvd m.val (k + k / 10)
  let u ← TMat.ofNumpy .sparse ut.transpose
  let v ← TMat.ofNumpy .sparse vt.transpose
  let noCols := min u.nc k
  let u' ← TMat.wrap .sparse (u.val.takeCols noCols)
  let v' ← TMat.wrap .sparse (v.val.takeCols noCols)
  let (u'', v'') ← signFix u' v'
  let s' := s.take noCols
  return (u'', ⟨[s'.length], s'⟩, v'')

/-- `Linalg.svd` (`linalg.py:47-82`). -/
def svd (env : Env) (m : TMat ℝ) (k : ℕ) : Py (TMat ℝ × Arr ℝ × TMat ℝ) :=
  if k = 0 then .error .valueError
  else match m.ty with
    | .sparse => sparseSvd env m k
    | .dense => denseSvd env m k

/-- `Linalg.pinv` (`linalg.py:383-411`): the class is kept, the numbers come from numpy. -/
def pinv (env : Env) (m : TMat ℝ) : Py (TMat ℝ) := do
  let p ← env.npPinv m.val
  TMat.ofNumpy m.ty p

/-- `if intercept: matrix_a = matrix_a.hstack(matrix_type(np.ones(...)))` (`linalg.py:115-117, 167-169`). -/
def addOnes (a : TMat ℝ) (intercept : Bool) : Py (TMat ℝ) :=
  if intercept then do
    let ones ← TMat.ofNumpy a.ty (Mat.const a.nr 1 1)
    a.hstack ones
  else .ok a

/-- `lambda_diag` (`linalg.py:118-121`). -/
def lambdaDiag (ty : MTy) (dim : ℕ) (lam : ℝ) (intercept : Bool) : Py (TMat ℝ) := do
  let ident ← TMat.identity ty dim
  let ld ← ident.mulScalar lam
  if intercept then do
    let p ← ld.padd 0 0
    p.padd 1 0
  else .ok ld

/-- `try: pinv(...) except LinAlgError: identity` (`linalg.py:124-128`). -/
def pinvOrIdentity (env : Env) (m : TMat ℝ) (n : ℕ) : Py (TMat ℝ) :=
  match pinv env m with
  | .error .linAlgError => TMat.identity m.ty n
  | r => r

/-- `Linalg.ridge_regression` (`linalg.py:84-142`): solution, trace, residual norm. -/
def ridgeRegression (env : Env) (a b : TMat ℝ) (lam : ℝ) (intercept : Bool) : Py (TMat ℝ × ℝ × ℝ) := do
  a.assertSameType b
  a.assertSameRows b
  let a' ← addOnes a intercept
  let ld ← lambdaDiag a.ty a.nc lam intercept
  let at_ ← a'.transpose
  let gram ← at_.mul a'
  let reg ← gram.add ld
  let tmp ← pinvOrIdentity env reg ld.nr
  let tmpRes ← tmp.mul at_
  let result ← tmpRes.mul b
  let pred ← a'.mul result
  let diff ← pred.sub b
  let tr ← at_.multiply tmpRes
  return (result, tr.sumAll, diff.norm)

/-- `Linalg.lstsq_regression` (`linalg.py:144-190`). -/
def lstsqRegression (env : Env) (a b : TMat ℝ) (intercept : Bool) : Py (TMat ℝ) := do
  a.assertSameType b
  a.assertSameRows b
  let a' ← addOnes a intercept
  match a'.ty with
  | .dense => do
    let x ← env.npLstsq a'.val b.val
    TMat.ofNumpy .dense x
  | .sparse => do
    let r ← ridgeRegression env a' b 0 false
    return r.1

/-! ### Non-negative matrix factorisation -/

/-- State of the step-size search (`linalg.py:288-311`). -/
structure SearchState where
  alpha : ℝ
  decrAlpha : Bool
  hp : TMat ℝ

/-- One pass of the inner loop body (`linalg.py:290-311`). `first` is `inner_iter == 1`.
`.inl h` means `break` with the new `h` (and the current `alpha`), `.inr st` means go on. -/
def searchStep (wtw h grad : TMat ℝ) (first : Bool) (st : SearchState) : Py ((TMat ℝ × ℝ) ⊕ SearchState) := do
  let ag ← grad.mulScalar st.alpha
  let hn0 ← h.sub ag
  let hn ← hn0.getNonNegative
  let d ← hn.sub h
  let gd ← grad.multiply d
  let gradd := gd.sumAll
  let wd ← wtw.mul d
  let wdd ← wd.multiply d
  let dQd := wdd.sumAll
  let suffDecr := decide (99 / 100 * gradd + 1 / 2 * dQd < 0)
  let decrAlpha := if first then !suffDecr else st.decrAlpha
  let hp := if first then h else st.hp
  if decrAlpha then
    if suffDecr then return .inl (hn, st.alpha)
    else return .inr ⟨st.alpha * (1 / 10), decrAlpha, hp⟩
  else
    if !suffDecr || hp.allClose hn then return .inl (hp, st.alpha)
    else return .inr ⟨st.alpha / (1 / 10), decrAlpha, hn⟩

/-- The inner loop (`linalg.py:289-311`), `n` passes left; returns `h` and `alpha` afterwards. When the loop runs to
its end without `break`, `h` is unchanged. -/
def searchLoop (wtw h grad : TMat ℝ) : ℕ → Bool → SearchState → Py (TMat ℝ × ℝ)
  | 0, _, st => .ok (h, st.alpha)
  | n + 1, first, st => do
    match ← searchStep wtw h grad first st with
    | .inl r => return r
    | .inr st' => searchLoop wtw h grad n false st'

/-- The outer loop of `_nmf_nlssubprob` (`linalg.py:285-311`), `n` passes left. -/
def nlsLoop (wtv wtw : TMat ℝ) : ℕ → ℝ → TMat ℝ → Py (TMat ℝ)
  | 0, _, h => .ok h
  | n + 1, alpha, h => do
    let wh ← wtw.mul h
    let grad ← wh.sub wtv
    let (h', alpha') ← searchLoop wtw h grad 19 true ⟨alpha, false, h⟩
    nlsLoop wtv wtw n alpha' h'

/-- `_nmf_nlssubprob` (`linalg.py:266-313`) with `maxiter = 15`: `xrange(1, 15)` makes 14 passes. The returned
gradient and iteration count only influence the tolerances, which are never used; they are left out. -/
def nlsSubprob (v w wt hInit : TMat ℝ) : Py (TMat ℝ) := do
  let wtv ← wt.mul v
  let wtw ← wt.mul w
  nlsLoop wtv wtw 14 1 hInit

/-- The main loop of `nmf` (`linalg.py:357-377`), `n` passes left; `timeout n` says whether the time limit has been
exceeded at the start of that pass. -/
def nmfLoop (v vt : TMat ℝ) (timeout : ℕ → Bool) : ℕ → TMat ℝ → TMat ℝ → Py (TMat ℝ × TMat ℝ)
  | 0, w, h => .ok (w, h)
  | n + 1, w, h =>
    if timeout n then .ok (w, h)
    else do
      let ht ← h.transpose
      let wt ← w.transpose
      let oldW ← nlsSubprob vt ht h wt
      let w' ← oldW.transpose
      let h' ← nlsSubprob v w' oldW h
      nmfLoop v vt timeout n w' h'

/-- `Linalg.nmf` (`linalg.py:315-381`). The initial gradients (lines 345-354) are computed for the tolerances only;
their products are kept because they can raise. -/
def nmf (v wInit hInit : TMat ℝ) (timeout : ℕ → Bool) : Py (TMat ℝ × TMat ℝ) := do
  let wt ← wInit.transpose
  let ht ← hInit.transpose
  let vt ← v.transpose
  let hht ← hInit.mul ht
  let whht ← wInit.mul hht
  let vht ← v.mul ht
  let _gradW ← whht.sub vht
  let wtw ← wt.mul wInit
  let wtwh ← wtw.mul hInit
  let wtv ← wt.mul v
  let _gradH ← wtwh.sub wtv
  nmfLoop v vt timeout 19 wInit hInit

end
end Dissect
