import Verif.Model.Linalg
import Verif.Model.SpaceUtils

/-! # `utils/regression_learner.py` -/

namespace Dissect
open Finset
noncomputable section

/-- A regression learner object (`utils/regression_learner.py:24-89`): its attributes after construction. -/
inductive Learner
  /-- `LstsqRegressionLearner`: `_intercept` -/
  | lstsq (intercept : Bool)
  /-- `RidgeRegressionLearner`: `_intercept`, `_crossvalidation`, `_param_range`, `_param` -/
  | ridge (intercept cv : Bool) (range : List ℝ) (param : Option ℝ)

namespace Learner

/-- `np.linspace(0.0, 5, 11)` (`utils/regression_learner.py:74`). -/
def defaultRange : List ℝ := (List.range 11).map (fun i : ℕ => (i : ℝ) / 2)

/-- `has_intercept` (`utils/regression_learner.py:21-22`). -/
def hasIntercept : Learner → Bool
  | .lstsq i => i
  | .ridge i _ _ _ => i

/-- The keyword arguments of `RidgeRegressionLearner(**kwargs)`: the names given, and the values of the known ones
(`none`: not given; `some none` for `param`, `param_range`: given as `None`).
Simplification: values have the documented types. -/
structure RidgeArgs where
  names : List String
  intercept : Option Bool
  paramRange : Option (Option (List ℝ))
  param : Option (Option ℝ)
  crossvalidation : Option Bool

/-- The names are consistent with the values. -/
structure RidgeArgs.Consistent (a : RidgeArgs) : Prop where
  intercept : "intercept" ∈ a.names ↔ a.intercept.isSome
  paramRange : "param_range" ∈ a.names ↔ a.paramRange.isSome
  param : "param" ∈ a.names ↔ a.param.isSome
  crossvalidation : "crossvalidation" ∈ a.names ↔ a.crossvalidation.isSome

/-- `RidgeRegressionLearner.__init__` (`utils/regression_learner.py:64-89`). -/
def newRidge (a : RidgeArgs) : Py Learner := do
  assertValidKwargs a.names ["intercept", "param_range", "crossvalidation", "param"]
  let intercept := a.intercept.getD true
  let range := match a.paramRange with
    | some (some r) => r
    | _ => defaultRange
  let (cv, param) : Bool × Option ℝ := match a.param with
    | some (some p) => (false, some p)
    | _ => (true, none)
  let cv' := match a.crossvalidation with
    | some c => c
    | none => cv
  if cv' = false ∧ param = none then .error .valueError
  else return .ridge intercept cv' range param

/-- `x < y` where `none` is `np.Inf`. -/
def ltInf : Option ℝ → Option ℝ → Bool
  | some x, some y => decide (x < y)
  | some _, none => true
  | none, _ => false

/-- The variables of the cross-validation loop (`utils/regression_learner.py:104-106`); `none` is `np.Inf`. -/
structure GcvState where
  minParam : ℝ
  minErr : Option ℝ
  gcvErr : Option ℝ

/-- One iteration (`utils/regression_learner.py:109-120`). `N = matrix_a.shape[0]` is positive in every call. -/
def gcvStep (env : Env) (a b : TMat ℝ) (intercept : Bool) (st : GcvState) (p : ℝ) : Py GcvState := do
  let (_, tr, err) ← ridgeRegression env a b p intercept
  let nom := (1 - tr / (a.nr : ℝ)) ^ 2 * (a.nr : ℝ)
  let g := if nom ≠ 0 then some (err * err / nom) else st.gcvErr
  if ltInf g st.minErr then return ⟨p, g, g⟩ else return ⟨st.minParam, st.minErr, g⟩

/-- The loop (`utils/regression_learner.py:109-120`). -/
def gcvLoop (env : Env) (a b : TMat ℝ) (intercept : Bool) (st : GcvState) : List ℝ → Py GcvState
  | [] => .ok st
  | p :: ps => do
    let st' ← gcvStep env a b intercept st p
    gcvLoop env a b intercept st' ps

/-- `train` (`utils/regression_learner.py:44-45, 92-124`). A ridge learner without cross validation always has a
parameter (`newRidge`); `None * matrix` would be `TypeError`. -/
def train (env : Env) (l : Learner) (a b : TMat ℝ) : Py (TMat ℝ) :=
  match l with
  | .lstsq i => lstsqRegression env a b i
  | .ridge i false _ none => .error .typeError
  | .ridge i false _ (some p) => do
    let r ← ridgeRegression env a b p i
    return r.1
  | .ridge i true range _ => do
    let st ← gcvLoop env a b i ⟨0, none, none⟩ range
    let r ← ridgeRegression env a b st.minParam i
    return r.1

end Learner
end
end Dissect
