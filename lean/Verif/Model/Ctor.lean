import Verif.Model.Composition
import Verif.Model.Operation

/-!
# Constructors with keyword arguments, and the setters of the trainable models

The values are untyped, as in Python; the rest of the model starts from objects that were built correctly.
-/

namespace Dissect
noncomputable section

/-- A matrix-like value: a `DenseMatrix`/`SparseMatrix` object, a numpy matrix (or two-dimensional non-empty `ndarray`),
or a scipy sparse matrix. -/
inductive MatArg
  | obj (t : TMat ℝ)
  | numpy (A : Mat ℝ)
  | scipy (A : Mat ℝ)

/-- A Python value passed as an argument. `float` stands for every number that is not an integer object, `other` for
objects of any other class. -/
inductive PyVal (κ : Type)
  | none
  | bool (b : Bool)
  | int (z : ℤ)
  | float (x : ℝ)
  | str (s : String)
  | space (s : Space κ)
  | mat (m : MatArg)
  | learner (l : Learner)
  | other

/-- Keyword arguments. -/
abbrev Kwargs (κ : Type) := Dict String (PyVal κ)

namespace MatArg

/-- `matrix_type(m)` (`dense_matrix.py:34-51`, `sparse_matrix.py:42-59`). -/
def toTy (ty : MTy) : MatArg → Py (TMat ℝ)
  | obj t => t.toType ty
  | numpy A => TMat.ofNumpy ty A
  | scipy A => .ok ⟨ty, A⟩

/-- `to_matrix` (`utils/matrix_utils.py:10-17`). -/
def toMatrix : MatArg → Py (TMat ℝ)
  | scipy A => .ok ⟨.sparse, A⟩
  | m => m.toTy .dense

/-- The branches of `to_compatible_matrix_types` (`utils/matrix_utils.py:54-62`) that convert the first argument. -/
def firstOf : MatArg → MatArg → Py (TMat ℝ)
  | obj s, _ => .ok s
  | m, obj t => m.toTy t.ty
  | m, _ => m.toMatrix

/-- The branches of `to_compatible_matrix_types` (`utils/matrix_utils.py:54-62`) that convert the second argument:
`v2 = type(v1)(v2)`, except that a `Matrix` given with a raw first argument stays as it is. -/
def secondOf (v1 : TMat ℝ) : MatArg → MatArg → Py (TMat ℝ)
  | obj _, m => m.toTy v1.ty
  | _, obj t => .ok t
  | _, m => m.toTy v1.ty

/-- `to_compatible_matrix_types` (`utils/matrix_utils.py:52-64`). -/
def toCompatible (a b : MatArg) : Py (TMat ℝ × TMat ℝ) := do
  let a' ← firstOf a b
  let b' ← secondOf a' a b
  return (a', b')

end MatArg

variable {κ : Type} [DecidableEq κ]

/-! ### Transformations -/

/-- `criterion in self._valid_criteria` and the assignment (`row_normalization.py:35-38`, `normalization.py:35-38`,
`top_feature_selection.py:37-40`). -/
def critVal : PyVal κ → Py Crit
  | .str s => if s = "sum" then .ok .sum else if s = "length" then .ok .length else .error .valueError
  | _ => .error .valueError

/-- The keyword handling common to the three classes (`row_normalization.py:31-41`, `normalization.py:31-41`,
`top_feature_selection.py:33-42`): `dflt` is the class attribute `criterion`. The last `else` (some keyword given, but
not `criterion`) cannot be reached after `assert_valid_kwargs`. -/
def critKw (dflt : Crit) (kw : Kwargs κ) : Py Crit := do
  assertValidKwargs kw.keys ["criterion"]
  match kw.get? "criterion" with
  | some v => critVal v
  | none => if kw.keys = [] then return dflt else .error .valueError

/-- `RowNormalization(**kwargs)` (`row_normalization.py:25-41`). -/
def newRowNorm (kw : Kwargs κ) : Py ScalingT := do return .rowNorm (← critKw .length kw)

/-- `Normalization(**kwargs)` (`normalization.py:24-41`). -/
def newNorm (kw : Kwargs κ) : Py ScalingT := do return .norm (← critKw .sum kw)

/-- A value given as `reduced_dimension`: Python 2 orders `None` before and every non-number after all numbers. -/
inductive DimArg
  | none
  | bool (b : Bool)
  | int (z : ℤ)
  | float (x : ℝ)
  | nonNumber

/-- `FeatureSelection.__init__` (`feature_selection.py:14-19`), `DimensionalityReduction.__init__`
(`dimensionality_reduction.py:15-22`), also `Svd.__init__` (`svd.py:25-29`), `Nmf.__init__` (`nmf.py:26-30`): the
stored `_reduced_dimension`. For `None` the formatting of the message (`%d`) raises `TypeError`. -/
def checkDimArg : DimArg → Py DimArg
  | .none => .error .typeError
  | .bool b => if b then .ok (.bool b) else .error .valueError
  | .int z => if z ≤ 0 then .error .valueError else .ok (.int z)
  | .float x => if x ≤ 0 then .error .valueError else .ok (.float x)
  | .nonNumber => .ok .nonNumber

/-- `TopFeatureSelection(reduced_dimension, **kwargs)` (`top_feature_selection.py:25-42`). -/
def newTop (k : DimArg) (kw : Kwargs κ) : Py (DimArg × Crit) := do
  let d ← checkDimArg k
  let c ← critKw .sum kw
  return (d, c)

/-! ### Learners -/

/-- `LstsqRegressionLearner(**kwargs)` (`utils/regression_learner.py:36-42`): the stored `_intercept`, whatever its
type. -/
def newLstsq (kw : Kwargs κ) : Py (PyVal κ) := do
  assertValidKwargs kw.keys ["intercept"]
  return (kw.get? "intercept").getD (.bool true)

/-! ### Composition models -/

/-- A `LexicalFunction` object as the constructor leaves it (`lexical_function.py:61-64`): the learner may be any
value. -/
structure LexObj (κ : Type) where
  learner : PyVal κ
  columns : List κ
  functions : Option (Space κ)
  intercept : Bool
  minSamples : ℤ

/-- `function_space=` (`lexical_function.py:66-71`). The message formatting of the error branch is itself a
`TypeError`. -/
def kwSpace (kw : Kwargs κ) : Py (Option (Space κ)) :=
  match kw.get? "function_space" with
  | none => .ok none
  | some (.space s) => .ok (some s)
  | some _ => .error .typeError

/-- `intercept=` (`lexical_function.py:73-78`). -/
def kwIntercept (kw : Kwargs κ) : Py Bool :=
  match kw.get? "intercept" with
  | none => .ok false
  | some (.bool b) => .ok b
  | some _ => .error .typeError

/-- `learner=` (`lexical_function.py:80-84`): not checked. -/
def kwLexLearner (kw : Kwargs κ) : Py (PyVal κ) :=
  match kw.get? "learner" with
  | none => .ok (.learner (.lstsq true))
  | some v => if kw.contains "function_space" then .error .valueError else .ok v

/-- `LexicalFunction(**kwargs)` (`lexical_function.py:42-84`). -/
def newLexical (kw : Kwargs κ) : Py (LexObj κ) := do
  assertValidKwargs kw.keys ["function_space", "intercept", "learner"]
  let s ← kwSpace kw
  let i ← kwIntercept kw
  let l ← kwLexLearner kw
  return ⟨l, [], s, i, 1⟩

/-- `train` (`lexical_function.py:86-170`) on such an object: the first statement (line 113) reads
`has_intercept` of the learner, which other values do not have. -/
def LexObj.train (env : Env) (le : κ → κ → Bool) (o : LexObj κ) (data : List (Triple κ)) (arg phrase : Space κ) :
    Py (LexFun κ) :=
  match o.learner with
  | .learner l => LexFun.train env le ⟨l, o.columns, o.functions, o.intercept, o.minSamples⟩ data arg phrase
  | _ => .error .attributeError

/-- `set_regression_learner` (`lexical_function.py:251-253`). -/
def LexObj.setLearner (o : LexObj κ) : PyVal κ → Py (LexObj κ)
  | .learner l => .ok { o with learner := .learner l }
  | _ => .error .typeError

/-- `set_min_samples` (`lexical_function.py:283-287`, `utils/num_utils.py:14-15`): a `bool` is an integer. -/
def LexObj.setMinSamples (o : LexObj κ) : PyVal κ → Py (LexObj κ)
  | .int z => .ok { o with minSamples := z }
  | .bool b => .ok { o with minSamples := if b then 1 else 0 }
  | _ => .error .valueError

/-- The learner branch of `FullAdditive.__init__` (`full_additive.py:71-75`): reading `has_intercept` of any other
value is `AttributeError`. -/
def fullAddLearner (kw : Kwargs κ) : Py (Composer κ) :=
  match kw.get? "learner" with
  | none => .ok (newFullAdditiveLearner (.lstsq true))
  | some (.learner l) => .ok (newFullAdditiveLearner l)
  | some _ => .error .attributeError

/-- The matrix branch of `FullAdditive.__init__` (`full_additive.py:56-69`, `is_array_or_matrix`,
`utils/matrix_utils.py:19-20`). numpy numbers pass the first test and are refused with the same exception by the
conversion. -/
def fullAddMats : PyVal κ → PyVal κ → Py (Composer κ)
  | .mat a, .mat b => do
    let (a', b') ← MatArg.toCompatible a b
    let at_ ← a'.transpose
    let bt ← b'.transpose
    return ⟨.fullAdditive (some at_) (some bt) false none, none⟩
  | _, _ => .error .typeError

/-- `FullAdditive(**kwargs)` (`full_additive.py:36-75`). -/
def newFullAdd (kw : Kwargs κ) : Py (Composer κ) := do
  assertValidKwargs kw.keys ["A", "B", "learner"]
  match kw.get? "A", kw.get? "B" with
  | some a, some b => fullAddMats a b
  | _, _ => fullAddLearner kw

/-- `model.regression_learner = v` (`full_additive.py:99-101`). The other classes of `Composer` have no such property: the
assignment creates an attribute nothing reads. -/
def setFullAddLearner (c : Composer κ) (v : PyVal κ) : Py (Composer κ) :=
  match c.model, v with
  | .fullAdditive a b i _, .learner l => .ok ⟨.fullAdditive a b i (some l), c.columns⟩
  | .fullAdditive _ _ _ _, _ => .error .typeError
  | _, _ => .ok c

end
end Dissect
