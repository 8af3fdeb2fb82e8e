import Verif.Model.Composition

/-!
# Matrix objects that are changed in place

Everywhere else in the model a matrix is a value. The code has four methods that change a `Matrix` object in place
(`plog`, `to_non_negative`, `to_ones`, `reshape`), constructors that keep a reference to their argument, and numpy
arrays that can be shared. Here matrices live on a heap:

* a *buffer* holds numbers: the memory of a numpy array, or a whole `csr_matrix` object (its `data`, `indices` and
  `indptr` are replaced together);
* an *object* is something a program can hold: a numpy matrix or `csr_matrix` (`raw`), or a `DenseMatrix` /
  `SparseMatrix`, each referring to a buffer, with the shape in which it reads that buffer.

Simplifications: numpy matrices are stored row by row (a `reshape` of such a matrix is a view of the same buffer);
`numpy.ndarray` arguments, which are always copied (`dense_matrix.py:43`), are not listed.
-/

namespace Dissect
noncomputable section

/-- An object: `raw` for a numpy matrix or a `csr_matrix`, otherwise a `Matrix` with its attribute `mat`
(`matrix/matrix.py:125-131`). -/
structure HObj where
  raw : Bool
  ty : MTy
  buf : ℕ
  nr : ℕ
  nc : ℕ

/-- All buffers and all objects created so far, numbered in order of creation. -/
structure Heap where
  bufs : List (Mat ℝ)
  objs : List HObj

namespace Heap

/-- Nothing created yet. -/
def empty : Heap := ⟨[], []⟩

/-- The matrix an object stands for. -/
def value (h : Heap) (o : HObj) : Option (TMat ℝ) :=
  (h.bufs[o.buf]?).map fun b => ⟨o.ty, b.reshape o.nr o.nc⟩

/-- What object `i` looks like now. -/
def view (h : Heap) (i : ℕ) : Option (TMat ℝ) := (h.objs[i]?).bind h.value

/-- The same for a `Matrix` object; a numpy matrix or `csr_matrix` does not have the methods of `Matrix`. -/
def matrix (h : Heap) (i : ℕ) : Option (TMat ℝ) :=
  (h.objs[i]?).bind fun o => if o.raw then none else h.value o

/-- A new object with a new buffer. -/
def push (h : Heap) (raw : Bool) (t : TMat ℝ) : Heap :=
  ⟨h.bufs ++ [t.val], h.objs ++ [⟨raw, t.ty, h.bufs.length, t.val.nr, t.val.nc⟩]⟩

/-- A new `Matrix` object that refers to the buffer of an existing object. -/
def pushShared (h : Heap) (o : HObj) : Heap := ⟨h.bufs, h.objs ++ [{ o with raw := false }]⟩

/-- Write into the buffer of `o`: every element is replaced by its image. -/
def writeBuf (h : Heap) (o : HObj) (f : ℝ → ℝ) : Heap :=
  ⟨h.bufs.modify o.buf (Mat.map f), h.objs⟩

/-- `self.mat = <new array>`: object `i` gets a new buffer. -/
def rebind (h : Heap) (i : ℕ) (t : TMat ℝ) : Heap :=
  ⟨h.bufs ++ [t.val], h.objs.modify i fun o => { o with buf := h.bufs.length, nr := t.val.nr, nc := t.val.nc }⟩

/-- `self.mat = self.mat.reshape(..)` for numpy: object `i` reads the same buffer in another shape. -/
def reshapeView (h : Heap) (i nr nc : ℕ) : Heap :=
  ⟨h.bufs, h.objs.modify i fun o => { o with nr := nr, nc := nc }⟩

end Heap

/-- Programs on the heap: the heap afterwards (also after an exception) and the outcome. -/
def HM (α : Type) : Type := Heap → Heap × Py α

namespace HM

/-- Sequencing; an exception ends the program. -/
def andThen {α β : Type} (p : HM α) (f : α → HM β) : HM β := fun h =>
  match p h with
  | (h', .ok a) => f a h'
  | (h', .error e) => (h', .error e)

instance : Monad HM where
  pure a := fun h => (h, .ok a)
  bind := andThen

/-- A computation that does not touch the heap. -/
def lift {α : Type} (v : Py α) : HM α := fun h => (h, v)

/-- Read a `Matrix` object. (Objects that do not exist cannot be mentioned in a program; `AttributeError` here.) -/
def read (i : ℕ) : HM (TMat ℝ) := fun h =>
  match h.matrix i with
  | some t => (h, .ok t)
  | none => (h, .error .attributeError)

/-- Turn a computed matrix into a new object. -/
def alloc (v : Py (TMat ℝ)) : HM ℕ := fun h =>
  match v with
  | .ok t => (h.push false t, .ok h.objs.length)
  | .error e => (h, .error e)

end HM

/-! ### Methods that return a new matrix -/

/-- Methods of one matrix with a new matrix as result; each of them builds a new array:
`copy` (`matrix.py:146-147`), `transpose` (`dense_matrix.py:92`, which copies; `sparse_matrix.py:159`, where `tocsr`
converts), `m[..]` (`dense_matrix.py:61`, which copies; `sparse_matrix.py:73-77`, `copy=True`), arithmetic
(`matrix.py:24-59`), `scale_rows`, `scale_columns` (`dense_matrix.py:193-231`, `sparse_matrix.py:249-278`),
`get_non_negative`, `remove_small_values` (`dense_matrix.py:259-270, 293-306`, `sparse_matrix.py:294-306, 329-343`). -/
inductive Meth1
  | copy | transpose | row (i : ℤ) | rows (is : List ℤ) | cols (cs : List ℕ) | neg | times (c : ℝ) | over (c : ℝ)
  | scaleRows (a : Arr ℝ) | scaleCols (a : Arr ℝ) | nonNegative | removeSmall (eps : ℝ)

/-- Methods of two matrices with a new matrix as result (`matrix.py:24-44`, `dense_matrix.py:63-82, 126-158`,
`sparse_matrix.py:161-215`). -/
inductive Meth2
  | vstack | hstack | add | sub | mul | multiply

/-- The value computed by a method of one matrix (`Model/Matrix.lean`). -/
def Meth1.eval : Meth1 → TMat ℝ → Py (TMat ℝ)
  | .copy, t => t.copy
  | .transpose, t => t.transpose
  | .row i, t => t.getRow i
  | .rows is, t => t.getRows is
  | .cols cs, t => t.getCols cs
  | .neg, t => t.neg
  | .times c, t => t.mulScalar c
  | .over c, t => t.divScalar c
  | .scaleRows a, t => t.scaleRows a
  | .scaleCols a, t => t.scaleCols a
  | .nonNegative, t => t.getNonNegative
  | .removeSmall e, t => t.removeSmallValues e

/-- The value computed by a method of two matrices (`Model/Matrix.lean`). -/
def Meth2.eval : Meth2 → TMat ℝ → TMat ℝ → Py (TMat ℝ)
  | .vstack, s, t => s.vstack t
  | .hstack, s, t => s.hstack t
  | .add, s, t => s.add t
  | .sub, s, t => s.sub t
  | .mul, s, t => s.mul t
  | .multiply, s, t => s.multiply t

namespace HM

/-- `x.method(..)` -/
def call1 (f : Meth1) (i : ℕ) : HM ℕ := do
  let t ← read i
  alloc (f.eval t)

/-- `x.method(y)` -/
def call2 (f : Meth2) (i j : ℕ) : HM ℕ := do
  let s ← read i
  let t ← read j
  alloc (f.eval s t)

/-! ### Methods that change the object -/

/-- `plog()`. Dense (`dense_matrix.py:245-246`): line 245 writes into the array, line 246 builds a new one. Sparse
(`sparse_matrix.py:290-292`): the `csr_matrix` object is changed. -/
def plogIn (i : ℕ) : HM Unit := fun h =>
  match h.objs[i]?, h.matrix i with
  | some o, some _ => match o.ty with
    | .dense =>
      let h1 := h.writeBuf o (fun x => if x < 1 then 1 else x)
      match h1.matrix i with
      | none => (h, .error .attributeError)
      | some t => (h1.rebind i ⟨.dense, t.val.map Real.log⟩, .ok ())
    | .sparse => (h.writeBuf o (fun x => if x = 0 then 0 else Real.log (if x ≤ 1 then 1 else x)), .ok ())
  | _, _ => (h, .error .attributeError)

/-- `to_non_negative()`. Dense (`dense_matrix.py:280`): a new array. Sparse (`sparse_matrix.py:315-316`): the
`csr_matrix` object is changed. -/
def nonNegIn (i : ℕ) : HM Unit := fun h =>
  match h.objs[i]?, h.matrix i with
  | some o, some t => match o.ty with
    | .dense => (h.rebind i t.toNonNegative, .ok ())
    | .sparse => (h.writeBuf o (fun x => if 0 < x then x else 0), .ok ())
  | _, _ => (h, .error .attributeError)

/-- `to_ones()`. Dense (`dense_matrix.py:291`): a new array. Sparse (`sparse_matrix.py:326-327`): the `csr_matrix`
object is changed. -/
def onesIn (i : ℕ) : HM Unit := fun h =>
  match h.objs[i]?, h.matrix i with
  | some o, some t => match o.ty with
    | .dense => (h.rebind i t.toOnes, .ok ())
    | .sparse => (h.writeBuf o (fun x => if 0 < x then 1 else 0), .ok ())
  | _, _ => (h, .error .attributeError)

/-- `reshape((nr, nc))`. Dense (`dense_matrix.py:111`): a view of the same array. Sparse
(`sparse_matrix.py:114-135`): a new `csr_matrix`. -/
def reshapeIn (i nr nc : ℕ) : HM Unit := fun h =>
  match h.objs[i]?, h.matrix i with
  | some o, some t =>
    if t.nr * t.nc = nr * nc then
      match o.ty with
      | .dense => (h.reshapeView i nr nc, .ok ())
      | .sparse => (h.rebind i ⟨.sparse, t.val.reshape nr nc⟩, .ok ())
    else (h, .error .valueError)
  | _, _ => (h, .error .attributeError)

end HM

/-- The methods that change a matrix. -/
inductive InPlace
  | plog | nonNegative | ones | reshape (nr nc : ℕ)

/-- Call such a method. -/
def InPlace.run : InPlace → ℕ → HM Unit
  | .plog, i => HM.plogIn i
  | .nonNegative, i => HM.nonNegIn i
  | .ones, i => HM.onesIn i
  | .reshape nr nc, i => HM.reshapeIn i nr nc

/-- The value the receiver is documented to have afterwards (`Model/Matrix.lean`). -/
def InPlace.eval : InPlace → TMat ℝ → Py (TMat ℝ)
  | .plog, t => .ok t.plog
  | .nonNegative, t => .ok t.toNonNegative
  | .ones, t => .ok t.toOnes
  | .reshape nr nc, t => t.reshape nr nc

namespace HM

/-! ### Constructors -/

/-- `DenseMatrix(x)` (`dense_matrix.py:34-47`), `SparseMatrix(x)` (`sparse_matrix.py:42-56`): the array of an argument
of the same kind is kept (`self.mat = data`, `data.tocsr()` which is `data` itself, `data.to_dense_matrix().mat`),
otherwise a new array is built. An empty numpy matrix is refused. -/
def wrap (ty : MTy) (i : ℕ) : HM ℕ := fun h =>
  match h.objs[i]?, h.view i with
  | some o, some t =>
    if o.raw ∧ o.ty = .dense ∧ (t.nr = 0 ∨ t.nc = 0) then (h, .error .valueError)
    else if o.ty = ty then (h.pushShared o, .ok h.objs.length)
    else match t.toType ty with
      | .error e => (h, .error e)
      | .ok t' => (h.push false t', .ok h.objs.length)
  | _, _ => (h, .error .attributeError)

/-- `matrix_type(x)` for one element of `resolve_type_conflict` (`utils/matrix_utils.py:78-87`): the objects themselves
unless their classes differ. -/
def resolve2 (ty : Option MTy) (i j : ℕ) : HM (ℕ × ℕ) := do
  let s ← read i
  let t ← read j
  if s.ty = t.ty then pure (i, j)
  else match ty with
    | none => lift (.error .typeError)
    | some ty => do
      let i' ← wrap ty i
      let j' ← wrap ty j
      pure (i', j')

/-! ### Transformations -/

/-- `EpmiWeighting.apply` (`epmi_weighting.py:16-48`). -/
def epmi (i : ℕ) (marginal : Option (Arr ℝ)) : HM ℕ := do
  let m ← read i
  lift m.assertPositive
  let rowSum := m.sum1
  let colSum := marginal.getD m.sum0
  let total := colSum.sum
  let j ← call1 (.scaleRows (nonzeroInvert rowSum)) i
  call1 (.scaleCols ((nonzeroInvert colSum).scale total)) j

/-- `PpmiWeighting.apply` (`ppmi_weighting.py:18-22`): `plog()` on the result of epmi. -/
def ppmi (i : ℕ) (marginal : Option (Arr ℝ)) : HM ℕ := do
  let j ← epmi i marginal
  plogIn j
  pure j

/-- `PlmiWeighting.apply` (`plmi_weighting.py:16-18`). -/
def plmi (i : ℕ) (marginal : Option (Arr ℝ)) : HM ℕ := do
  let j ← ppmi i marginal
  call2 .multiply i j

/-- `PlogWeighting.apply` (`plog_weighting.py:13-27`): a copy, changed in place. -/
def plogWeighting (i : ℕ) : HM ℕ := do
  let j ← call1 .copy i
  plogIn j
  pure j

/-- `RowNormalization.apply` (`row_normalization.py:42-51`). -/
def rowNormalization (c : Crit) (i : ℕ) : HM ℕ := do
  let m ← read i
  let rowNorms := match c with
    | .length => m.norm1
    | .sum => m.sum1
  call1 (.scaleRows (nonzeroInvert rowNorms)) i

/-- `Normalization.apply` (`normalization.py:42-55`): with total 0 the argument itself is returned. -/
def normalization (c : Crit) (i : ℕ) (total? : Option ℝ) : HM ℕ := do
  let m ← read i
  let total := total?.getD (normTotal c m)
  if total = 0 then pure i else call1 (.times (1 / total)) i

/-- `apply(matrix_)` or `apply(matrix_, column_stats)` of the scalings (as `ScalingT.apply`). -/
def scaling (t : ScalingT) (i : ℕ) (st : Option Stats) : HM ℕ :=
  match t, st with
  | .epmi, none => epmi i none
  | .epmi, some (.cols a) => epmi i (some a)
  | .ppmi, none => ppmi i none
  | .ppmi, some (.cols a) => ppmi i (some a)
  | .plmi, none => plmi i none
  | .plmi, some (.cols a) => plmi i (some a)
  | .plog, none => plogWeighting i
  | .rowNorm c, none => rowNormalization c i
  | .norm c, none => normalization c i none
  | .norm c, some (.num x) => normalization c i (some x)
  | _, _ => lift (.error .typeError)

/-- `TopFeatureSelection.apply` (`top_feature_selection.py:43-59`). -/
def select (k : ℕ) (c : Crit) (i : ℕ) : HM ℕ := do
  let m ← read i
  let norms := match c with
    | .sum => m.sum0
    | .length => m.norm0
  call1 (.cols ((sortedPermutation norms).take (min k m.nc))) i

/-- `DimensionalityReductionOperation.apply` (`operation.py:112-133`): the reduced matrix, wrapped in `DenseMatrix`, and
the transformation matrix. `svd.py`, `nmf.py:32-78` and `linalg.py` call no method that changes a matrix; the two
matrices they return are new. -/
def reduce (env : Env) (t : DimRedT) (i : ℕ) : HM (ℕ × ℕ) := do
  let m ← read i
  let p ← lift (t.apply env m)
  let r ← alloc (.ok p.1)
  let tm ← alloc (.ok p.2)
  let d ← wrap .dense r
  pure (d, tm)

/-- `if self.transformation.name == "nmf": result.to_non_negative()` (`operation.py:164-165`). -/
def nonNegIf (nmf : Bool) (i : ℕ) : HM Unit := if nmf then nonNegIn i else pure ()

/-- `DimensionalityReductionOperation.project` (`operation.py:135-167`) with the stored transformation matrix `tm`;
`to_non_negative()` (line 165) is called on the product. -/
def project (nmf : Bool) (i tm : ℕ) : HM ℕ := do
  let m ← read i
  lift (if nmf then m.assertPositive else .ok ())
  let p ← resolve2 (some m.ty) i tm
  let r ← call2 .mul p.1 p.2
  nonNegIf nmf r
  wrap .dense r

/-! ### Other callers of the in-place methods -/

/-- `LinSimilarity._sim` (`lin.py:22-31`): `to_ones()` on the product. -/
def linSim (i j : ℕ) : HM ℝ := do
  let v1 ← read i
  let v2 ← read j
  let common ← call2 .multiply i j
  onesIn common
  let denom := v1.sumAll + v2.sumAll
  if denom = 0 then pure 0
  else do
    let s ← call2 .add i j
    let c ← call2 .multiply common s
    let t ← read c
    pure (t.sumAll / denom)

/-- `padd_matrix` (`utils/matrix_utils.py:28-37`). -/
def padd (i : ℕ) (axis : ℤ) (x : ℝ) : HM ℕ := do
  let t ← read i
  alloc (t.padd axis x)

/-- `if self._has_intercept: padd_matrix(.., 0)` (`lexical_function.py:240-243`). -/
def paddIf (b : Bool) (i : ℕ) : HM ℕ := if b then padd i 0 1 else pure i

/-- `LexicalFunction._compose` (`lexical_function.py:233-245`): the first argument is reshaped in place. -/
def lexCompose (intercept : Bool) (f arg : ℕ) (shape : List ℕ) : HM ℕ :=
  match shape.getLast?, shape.dropLast with
  | none, _ => lift (.error .indexError)
  | some _, [] => do
    let t ← read f
    match t.ty with
    | .sparse => lift (.error .valueError)
    | .dense => lift (.error .typeError)
  | some n, _ :: _ => do
    reshapeIn f shape.dropLast.prod n
    let t ← call1 .transpose arg
    let t' ← paddIf intercept t
    let r ← call2 .mul f t'
    call1 .transpose r

/-- One phrase of `LexicalFunction.compose` (`lexical_function.py:206-216`), given the matrices of the function space
and of the argument space (the first two lines: these are `Matrix` objects) and the two row numbers. -/
def lexOne (intercept : Bool) (fs arg : ℕ) (fi ai : ℤ) (shape : List ℕ) : HM ℕ := do
  let _ ← read fs
  let _ ← read arg
  let v1 ← call1 (.row fi) fs
  let v2 ← call1 (.row ai) arg
  let a ← read v1
  let b ← read v2
  let p ← resolve2 (TMat.typeOfLargest [a, b]) v1 v2
  lexCompose intercept p.1 p.2 shape

end HM

/-! ### Histories -/

/-- What a program can do with matrices (`i`, `j` number existing objects). -/
inductive HCall
  /-- the caller builds a numpy matrix or a `csr_matrix` -/
  | array (t : TMat ℝ)
  /-- `DenseMatrix(x)`, `SparseMatrix(x)` -/
  | wrap (ty : MTy) (i : ℕ)
  | call1 (f : Meth1) (i : ℕ)
  | call2 (f : Meth2) (i j : ℕ)
  | inPlace (f : InPlace) (i : ℕ)
  /-- `scaling.apply(x)`, or with the statistics of a core space -/
  | scaling (t : ScalingT) (i : ℕ) (st : Option Stats)
  | select (k : ℕ) (c : Crit) (i : ℕ)
  | reduce (t : DimRedT) (i : ℕ)
  | project (nmf : Bool) (i tm : ℕ)
  | linSim (i j : ℕ)
  | lexOne (intercept : Bool) (fs arg : ℕ) (fi ai : ℤ) (shape : List ℕ)

/-- Run one call: the heap afterwards and the objects returned. -/
def HCall.step (env : Env) : HCall → HM (List ℕ)
  | .array t => fun h => (h.push true t, .ok [h.objs.length])
  | .wrap ty i => do let r ← HM.wrap ty i; pure [r]
  | .call1 f i => do let r ← HM.call1 f i; pure [r]
  | .call2 f i j => do let r ← HM.call2 f i j; pure [r]
  | .inPlace f i => do f.run i; pure []
  | .scaling t i st => do let r ← HM.scaling t i st; pure [r]
  | .select k c i => do let r ← HM.select k c i; pure [r]
  | .reduce t i => do let r ← HM.reduce env t i; pure [r.1, r.2]
  | .project b i tm => do let r ← HM.project b i tm; pure [r]
  | .linSim i j => do let _ ← HM.linSim i j; pure []
  | .lexOne b fs arg fi ai sh => do let r ← HM.lexOne b fs arg fi ai sh; pure [r]

/-- The heap after a sequence of calls, whatever their outcomes. -/
def Heap.run (env : Env) (h : Heap) : List HCall → Heap
  | [] => h
  | c :: cs => Heap.run env (c.step env h).1 cs

end
end Dissect
