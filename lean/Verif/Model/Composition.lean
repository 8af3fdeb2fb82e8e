import Verif.Model.Space
import Verif.Model.Regression

/-! # `composition/*.py` -/

namespace Dissect
open Finset
noncomputable section
variable {κ : Type} [DecidableEq κ]

/-! ### Data -/

/-- A training or composition triple of strings. -/
abbrev Triple (κ : Type) := κ × κ × κ

/-- `cond and sample[i] in row2id` unless `row2id is None` (`composition_model.py:192-199`). -/
def knownIn (d : Option (Dict κ ℤ)) (w : κ) : Bool :=
  match d with
  | none => true
  | some d => d.contains w

/-- The loop of `valid_data_to_lists` (`composition_model.py:187-205`): the three lists. -/
def validLoop (d1 d2 d3 : Option (Dict κ ℤ)) : List (Triple κ) → List κ × List κ × List κ
  | [] => ([], [], [])
  | (a, b, c) :: rest =>
    let (l1, l2, l3) := validLoop d1 d2 d3 rest
    if knownIn d1 a && knownIn d2 b && knownIn d3 c then (a :: l1, b :: l2, c :: l3) else (l1, l2, l3)

/-- `valid_data_to_lists` (`composition_model.py:178-214`). With no data the loop variable `i` is never bound and
`if i + 1 != j` (line 207) raises `UnboundLocalError`. The warning is left out. -/
def validData (data : List (Triple κ)) (d1 d2 d3 : Option (Dict κ ℤ)) : Py (List κ × List κ × List κ) :=
  match data with
  | [] => .error .unboundLocalError
  | _ :: _ =>
    let (l1, l2, l3) := validLoop d1 d2 d3 data
    match l1 with
    | [] => .error .valueError
    | _ :: _ => .ok (l1, l2, l3)

/-- The `arg_space` argument: a space or a tuple of spaces. -/
inductive ArgSpace (κ : Type)
  | one (s : Space κ)
  | tuple (l : List (Space κ))

/-- `extract_arg_spaces` (`composition_model.py:143-172`). -/
def ArgSpace.extract : ArgSpace κ → Py (Space κ × Space κ)
  | .one s => if s.id2col ≠ s.id2col then .error .valueError else .ok (s, s)
  | .tuple [s1, s2] => if s1.id2col ≠ s2.id2col then .error .valueError else .ok (s1, s2)
  | .tuple _ => .error .valueError

/-! ### Models that combine two vectors -/

/-- The parameters of a composition model object (`LexicalFunction` is separate). `fullAdditive` holds `_mat_a_t`,
`_mat_b_t`, `_has_intercept` and `_regression_learner` (absent when `A` and `B` were given,
`full_additive.py:53-75`). -/
inductive CModel
  | weighted (alpha beta : ℝ)
  | dilation (lam : ℝ)
  | multiplicative
  | fullAdditive (at_ bt : Option (TMat ℝ)) (intercept : Bool) (learner : Option Learner)

/-- A composition model object: parameters and the attribute `composed_id2column`
(`composition_model.py:26`, class default `None`). -/
structure Composer (κ : Type) where
  model : CModel
  columns : Option (List κ)

/-- A constructor argument that should be a number. -/
inductive NumArg
  | absent
  | num (x : ℝ)
  | other

/-- `WeightedAdditive.__init__` (`weighted_additive.py:35-63`). -/
def newWeighted (alpha beta : NumArg) : Py (Composer κ) :=
  match alpha, beta with
  | .other, _ => .error .typeError
  | _, .other => .error .typeError
  | .absent, .absent => .ok ⟨.weighted (1 / 2) (1 / 2), none⟩
  | .absent, .num b => .ok ⟨.weighted (1 / 2) b, none⟩
  | .num a, .absent => .ok ⟨.weighted a (1 - a), none⟩
  | .num a, .num b => .ok ⟨.weighted a b, none⟩

/-- `Dilation.__init__` (`dilation.py:26-42`). -/
def newDilation (lam : NumArg) : Py (Composer κ) :=
  match lam with
  | .absent => .ok ⟨.dilation 2, none⟩
  | .num l => .ok ⟨.dilation l, none⟩
  | .other => .error .valueError

/-- `Multiplicative.__init__` (`multiplicative.py:24-27`). -/
def newMultiplicative : Composer κ := ⟨.multiplicative, none⟩

/-- `FullAdditive(A=a, B=b)` for two matrices (`full_additive.py:53-69`).
Simplification: `A`, `B` are `Matrix` objects. -/
def newFullAdditive (a b : TMat ℝ) : Py (Composer κ) := do
  let (a', b') ← TMat.toCompatible a b
  let at_ ← a'.transpose
  let bt ← b'.transpose
  return ⟨.fullAdditive (some at_) (some bt) false none, none⟩

/-- `FullAdditive(learner=l)`, `FullAdditive()` with the default least-squares learner (`full_additive.py:71-75`). -/
def newFullAdditiveLearner (l : Learner) : Composer κ :=
  ⟨.fullAdditive none none l.hasIntercept (some l), none⟩

namespace CModel

/-- `_compose` of `WeightedAdditive` (`weighted_additive.py:122-123`). -/
def composeWeighted (alpha beta : ℝ) (m1 m2 : TMat ℝ) : Py (TMat ℝ) := do
  let x ← m1.mulScalar alpha
  let y ← m2.mulScalar beta
  x.add y

/-- `_compose` of `Dilation` (`dilation.py:63-80`). -/
def composeDilation (lam : ℝ) (m1 m2 : TMat ℝ) : Py (TMat ℝ) := do
  let norms := m1.norm1
  let prod ← m1.multiply m2
  let f1 := prod.sum1
  let f2 := norms.mul norms
  let s1 ← m1.scaleRows f1
  let s2 ← m2.scaleRows f2
  let x ← s1.mulScalar (lam - 1)
  x.add s2

/-- `_compose` of `FullAdditive` (`full_additive.py:88-97`). An untrained model has `None` matrices, on which
`resolve_type_conflict` reports a conflict and calls `type(arg1_mat)(None)`: `TypeError`. -/
def composeFull (at_ bt : Option (TMat ℝ)) (intercept : Bool) (m1 m2 : TMat ℝ) : Py (TMat ℝ) :=
  match at_, bt with
  | some A, some B => do
    match ← TMat.resolveTypeConflict [A, B, m1] (some m1.ty) with
    | [A', B', m1'] => do
      let x ← m1'.mul A'
      let m2' ← if intercept then m2.padd 1 1 else .ok m2
      let y ← m2'.mul B'
      x.add y
    | _ => .error .valueError
  | _, _ => .error .typeError

/-- `_compose`. -/
def compose2 (c : CModel) (m1 m2 : TMat ℝ) : Py (TMat ℝ) :=
  match c with
  | .weighted a b => composeWeighted a b m1 m2
  | .dilation l => composeDilation l m1 m2
  | .multiplicative => m1.multiply m2
  | .fullAdditive A B i _ => composeFull A B i m1 m2

end CModel

/-- `_build_id2column` (`composition_model.py:174-175`, `full_additive.py:112-113`). -/
def CModel.buildColumns (c : CModel) (s1 : Space κ) : List κ :=
  match c with
  | .fullAdditive _ _ _ _ => []
  | _ => s1.id2col

/-- The composed matrix and the phrase labels (`composition_model.py:120-131`). -/
def CModel.composeData (c : CModel) (data : List (Triple κ)) (args : ArgSpace κ) :
    Py (Space κ × List κ × TMat ℝ) := do
  let (s1, s2) ← args.extract
  let (l1, l2, l3) ← validData data (some s1.row2id) (some s2.row2id) none
  let m1 ← s1.getRows l1
  let m2 ← s2.getRows l2
  match ← TMat.resolveTypeConflict [m1, m2] (some .dense) with
  | [m1', m2'] => do
    let m ← c.compose2 m1' m2'
    return (s1, l3, m)
  | _ => .error .valueError

/-- `compose` (`composition_model.py:98-141`): the object afterwards and the outcome. -/
def Composer.compose (c : Composer κ) (data : List (Triple κ)) (args : ArgSpace κ) : Composer κ × Py (Space κ) :=
  match c.model.composeData data args with
  | .error e => (c, .error e)
  | .ok (s1, phrases, m) =>
    let cols := c.columns.getD (c.model.buildColumns s1)
    ({ c with columns := some cols }, Space.new m phrases cols none none [] none)

/-! ### Training -/

/-- `chunk_size` (`weighted_additive.py:71`): `int(rows * 0.2 / 3.0) + 1`, computed exactly. -/
def chunkSize (rows : ℕ) : ℕ := rows / 15 + 1

/-- The five sums of `_train1` (`weighted_additive.py:98-111`). -/
structure Dots where
  d12 : ℝ
  d1p : ℝ
  d2p : ℝ
  n1 : ℝ
  n2 : ℝ

/-- `_train1` (`weighted_additive.py:98-111`). -/
def train1 (m1 m2 p : TMat ℝ) : Py Dots := do
  let a ← m1.multiply m2
  let b ← m1.multiply p
  let c ← m2.multiply p
  return ⟨a.sumAll, b.sumAll, c.sumAll, m1.norm ^ 2, m2.norm ^ 2⟩

/-- `arg1_arg2_dot += res[0]` etc. (`weighted_additive.py:88-92`). -/
def Dots.add (x y : Dots) : Dots := ⟨x.d12 + y.d12, x.d1p + y.d1p, x.d2p + y.d2p, x.n1 + y.n1, x.n2 + y.n2⟩

/-- The rows of the samples `l1, l2, l3` in one matrix class (`composition_model.py:87-94`,
`weighted_additive.py:78-85`). -/
def sampleMats (s1 s2 p : Space κ) (l1 l2 l3 : List κ) : Py (TMat ℝ × TMat ℝ × TMat ℝ) := do
  let m1 ← s1.getRows l1
  let m2 ← s2.getRows l2
  let mp ← p.getRows l3
  match ← TMat.resolveTypeConflict [m1, m2, mp] (some .dense) with
  | [a, b, c] => return (a, b, c)
  | _ => .error .valueError

/-- `l[beg:end]`. -/
def slice (l : List κ) (b e : ℕ) : List κ := (l.take e).drop b

/-- The chunk loop (`weighted_additive.py:73-92`) over the chunk numbers. -/
def chunkLoop (s1 s2 p : Space κ) (l1 l2 l3 : List κ) (size : ℕ) (acc : Dots) : List ℕ → Py Dots
  | [] => .ok acc
  | i :: is => do
    let b := i * size
    let e := min ((i + 1) * size) l1.length
    let (m1, m2, mp) ← sampleMats s1 s2 p (slice l1 b e) (slice l2 b e) (slice l3 b e)
    let r ← train1 m1 m2 mp
    chunkLoop s1 s2 p l1 l2 l3 size (acc.add r) is

/-- `_train2` (`weighted_additive.py:113-119`). -/
def train2 (env : Env) (d : Dots) : Py (ℝ × ℝ) := do
  let P ← env.npPinv (Mat.of 2 2 (fun i j =>
    if i = 0 ∧ j = 0 then d.n1 else if i = 1 ∧ j = 1 then d.n2 else d.d12))
  let a := P.mul (Mat.of 2 1 (fun i _ => if i = 0 then d.d1p else d.d2p))
  return (a.get 0 0, a.get 1 0)

/-- `xxx` of `WeightedAdditive` (`weighted_additive.py:66-95`); `/` is Python-2 integer division. -/
def trainWeighted (env : Env) (s1 s2 p : Space κ) (l1 l2 l3 : List κ) : Py CModel := do
  let size := chunkSize p.mat.nr
  let d ← chunkLoop s1 s2 p l1 l2 l3 size ⟨0, 0, 0, 0, 0⟩ (List.range (l1.length / size))
  let (a, b) ← train2 env d
  return .weighted a b

/-- `_train` of `Dilation` (`dilation.py:43-60`). -/
def trainDilation (m1 m2 p : TMat ℝ) : Py CModel := do
  let norms := m1.norm1
  let sq := norms.mul norms
  let sc ← m2.scaleRows sq
  let diff ← sc.sub p
  let dp ← m1.multiply diff
  let dot := dp.sum1
  let vv ← m1.multiply m2
  let v12 := vv.sum1
  let v12sq := v12.mul v12
  let nom := (v12sq.mul sq).sum
  let denom := (v12.mul dot).sum
  if nom ≠ 0 then return .dilation (1 - denom / nom) else return .dilation 2

/-- `m[0:n, :]`, `m[n:, :]` (`full_additive.py:84-85`); the result is wrapped in the same class. -/
def splitRows (m : TMat ℝ) (n : ℕ) : Py (TMat ℝ × TMat ℝ) := do
  let a ← TMat.wrap m.ty (m.val.selRows ((List.range m.nr).take n))
  let b ← TMat.wrap m.ty (m.val.selRows ((List.range m.nr).drop n))
  return (a, b)

/-- `_train` of `FullAdditive` (`full_additive.py:78-85`). With `A`, `B` given to the constructor there is no attribute
`_regression_learner` (`AttributeError`). -/
def trainFull (env : Env) (learner : Option Learner) (m1 m2 p : TMat ℝ) : Py CModel :=
  match learner with
  | none => .error .attributeError
  | some l => do
    let h ← m1.hstack m2
    let r ← l.train env h p
    let (a, b) ← splitRows r m1.nc
    return .fullAdditive (some a) (some b) l.hasIntercept (some l)

/-- The model-specific part of training: `xxx` (`composition_model.py:85-96`, `weighted_additive.py:66-95`).
`Multiplicative` has no `_train` and is never asked for it, see `Composer.train`. -/
def CModel.trainOn (env : Env) (c : CModel) (s1 s2 p : Space κ) (l1 l2 l3 : List κ) : Py CModel :=
  match c with
  | .multiplicative => .error .typeError
  | .weighted _ _ => trainWeighted env s1 s2 p l1 l2 l3
  | .dilation _ => do
    let (m1, m2, mp) ← sampleMats s1 s2 p l1 l2 l3
    trainDilation m1 m2 mp
  | .fullAdditive _ _ _ learner => do
    let (m1, m2, mp) ← sampleMats s1 s2 p l1 l2 l3
    trainFull env learner m1 m2 mp

/-- Whether the class inherits `CompositionModel.train`: `Multiplicative` overrides it by a method without parameters
(`multiplicative.py:29-33`). -/
def CModel.trainable : CModel → Bool
  | .multiplicative => false
  | _ => true

/-- `CompositionModel.train` (`composition_model.py:36-82`). This is the object after
success; what a failing call leaves behind is described by `Composer.trainS` in `Model/ModelState`. -/
def Composer.trainShared (env : Env) (c : Composer κ) (data : List (Triple κ)) (args : ArgSpace κ) (phrase : Space κ) :
    Py (Composer κ) := do
  let (s1, s2) ← args.extract
  let (l1, l2, l3) ← validData data (some s1.row2id) (some s2.row2id) (some phrase.row2id)
  let m ← c.model.trainOn env s1 s2 phrase l1 l2 l3
  return ⟨m, some phrase.id2col⟩

/-- `model.train(data, args, phrase)`: `CompositionModel.train` (`composition_model.py:36-82`), or, for `Multiplicative`
(`multiplicative.py:29-33`), a call with three arguments too many: `TypeError`. -/
def Composer.train (env : Env) (c : Composer κ) (data : List (Triple κ)) (args : ArgSpace κ) (phrase : Space κ) :
    Py (Composer κ) :=
  if c.model.trainable then c.trainShared env data args phrase else .error .typeError

/-- `CompositionModel.train` is what runs for the other classes (`composition_model.py:36-82`). -/
theorem Composer.train_shared {env : Env} {c : Composer κ} {data : List (Triple κ)} {args : ArgSpace κ} {phrase : Space κ}
    (h : c.model.trainable = true) : c.train env data args phrase = c.trainShared env data args phrase := if_pos h

/-- A successful call ran `CompositionModel.train` (`composition_model.py:36-82`). -/
theorem Composer.train_inv {env : Env} {c c' : Composer κ} {data : List (Triple κ)} {args : ArgSpace κ} {phrase : Space κ}
    (h : c.train env data args phrase = .ok c') : c.model.trainable = true ∧ c.trainShared env data args phrase = .ok c' := by
  unfold Composer.train at h
  split at h
  · exact ⟨‹_›, h⟩
  · cases h

/-! ### Lexical function -/

/-- A `LexicalFunction` object (`lexical_function.py:42-84`). -/
structure LexFun (κ : Type) where
  learner : Learner
  columns : List κ
  functions : Option (Space κ)
  intercept : Bool
  minSamples : ℤ

/-- `LexicalFunction(function_space=s, intercept=i)` (`lexical_function.py:59-78`). -/
def LexFun.ofSpace (s : Space κ) (intercept : Bool) : LexFun κ := ⟨.lstsq true, [], some s, intercept, 1⟩

/-- `LexicalFunction(learner=l)` (`lexical_function.py:59-84`). -/
def LexFun.ofLearner (l : Learner) : LexFun κ := ⟨l, [], none, false, 1⟩

/-- `_compose` (`lexical_function.py:233-245`). `function_arg_vec` is a fresh row object, so reshaping it in place does
not touch the function space. An empty `element_shape` cannot occur (`element_shape[-1]` would be `IndexError`).
With a one-dimensional `element_shape`, `np.prod(())` is the float `1.0`, which is not an integer shape: `ValueError`
from `SparseMatrix.reshape`, `TypeError` from recent numpy versions (old ones accept it with a warning; no theorem is
about this case). -/
def lexCompose (intercept : Bool) (f arg : TMat ℝ) (shape : List ℕ) : Py (TMat ℝ) :=
  match shape.getLast?, shape.dropLast with
  | none, _ => .error .indexError
  | some _, [] => match f.ty with
    | .sparse => .error .valueError
    | .dense => .error .typeError
  | some n, _ :: _ => do
    let f' ← f.reshape shape.dropLast.prod n
    let t ← arg.transpose
    let t' ← if intercept then t.padd 0 1 else .ok t
    let r ← f'.mul t'
    r.transpose

/-- One iteration of the loop of `compose` (`lexical_function.py:206-216`). -/
def lexOne (intercept : Bool) (fs arg : Space κ) (f w : κ) : Py (TMat ℝ) := do
  let v1 ← fs.getRow f
  let v2 ← arg.getRow w
  match ← TMat.resolveTypeConflict [v1, v2] (TMat.typeOfLargest [v1, v2]) with
  | [a, b] => lexCompose intercept a b fs.elemShape
  | _ => .error .valueError

/-- The loop of `compose` (`lexical_function.py:205-216`). -/
def lexLoop (intercept : Bool) (fs arg : Space κ) : List κ → List κ → Py (List (TMat ℝ))
  | f :: fl, w :: ws => do
    let v ← lexOne intercept fs arg f w
    let vs ← lexLoop intercept fs arg fl ws
    return v :: vs
  | _, _ => .ok []

/-- `composed_ph_vec.nary_vstack(composed_vec_list)` (`lexical_function.py:219`): the class of the last vector. -/
def stackLast (vs : List (TMat ℝ)) : Py (TMat ℝ) :=
  match vs.getLast? with
  | none => .error .unboundLocalError
  | some v => TMat.naryVstack v.ty vs

/-- `compose` (`lexical_function.py:177-230`). Without a function space: `AttributeError`. -/
def LexFun.compose (m : LexFun κ) (data : List (Triple κ)) (arg : Space κ) : Py (Space κ) :=
  match m.functions with
  | none => .error .attributeError
  | some fs => do
    let (l1, l2, l3) ← validData data (some fs.row2id) (some arg.row2id) none
    let vs ← lexLoop m.intercept fs arg l1 l2
    let mat ← stackLast vs
    Space.new mat l3 m.columns none none [] (some fs.elemShape.dropLast)

/-- One iteration of the training loop (`lexical_function.py:140-157`); `cols` is the size of one function. -/
def lexTrainOne (env : Env) (l : Learner) (arg phrase : Space κ) (al pl : List κ) (size : ℕ) : Py (TMat ℝ × MTy) := do
  let am ← arg.getRows al
  let pm ← phrase.getRows pl
  match ← TMat.resolveTypeConflict [am, pm] (TMat.typeOfLargest [am, pm]) with
  | [am', pm'] => do
    let x ← l.train env am' pm'
    let xt ← x.transpose
    let r ← xt.reshape 1 size
    return (r, am'.ty)
  | _ => .error .valueError

/-- The training loop (`lexical_function.py:138-157`) over the key ranges. -/
def lexTrainLoop (env : Env) (l : Learner) (arg phrase : Space κ) (al pl : List κ) (size : ℕ) :
    List (ℕ × ℕ) → Py (List (TMat ℝ × MTy))
  | [] => .ok []
  | (b, e) :: rs => do
    let r ← lexTrainOne env l arg phrase (slice al b e) (slice pl b e) size
    let rest ← lexTrainLoop env l arg phrase al pl size rs
    return r :: rest

/-- `train` (`lexical_function.py:86-164`). `le` is the order of strings used by `sorted` (line 120, stable).
`assert(len(arg_space.element_shape) == 1)` is line 131. This is the object after success; what a failing call leaves behind
is described by `LexFun.trainS` in `Model/ModelState`. -/
def LexFun.train (env : Env) (le : κ → κ → Bool) (m : LexFun κ) (data : List (Triple κ)) (arg phrase : Space κ) :
    Py (LexFun κ) := do
  let sorted := data.mergeSort (fun x y => le x.1 y.1)
  let (fl, al, pl) ← validData sorted none (some arg.row2id) (some phrase.row2id)
  let (keys, ranges) ← getPartitions fl m.minSamples
  if keys = [] then .error .valueError
  else match arg.elemShape with
    | [n] => do
      let ic := m.learner.hasIntercept
      let shape := phrase.elemShape ++ [if ic then n + 1 else n]
      let rs ← lexTrainLoop env m.learner arg phrase al pl shape.prod ranges
      match rs.getLast? with
      | none => .error .unboundLocalError
      | some (_, ty) => do
        let mat ← TMat.naryVstack ty (rs.map Prod.fst)
        let fs ← Space.new mat keys [] none none [] (some shape)
        return ⟨m.learner, phrase.id2col, some fs, ic, m.minSamples⟩
    | _ => .error .assertionError

end
end Dissect
