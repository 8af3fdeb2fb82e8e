import Verif.Model.Composition

/-!
# What a training call leaves behind when it raises

`Composer.train` and `LexFun.train` (`Model/Composition`) describe the object after a successful call. Here the
assignments to the attributes are made in the order of the code, so that the object after a failing call is described
too.
-/

namespace Dissect
noncomputable section
variable {κ : Type} [DecidableEq κ]

/-- `_train` of `FullAdditive` (`full_additive.py:78-85`): the intercept flag is assigned first, then the regression
runs, then the two matrices are assigned one after the other. `a`, `b`, `i` are the attributes before the call. -/
def trainFullS (env : Env) (a b : Option (TMat ℝ)) (i : Bool) (learner : Option Learner) (m1 m2 p : TMat ℝ) :
    CModel × Py Unit :=
  match learner with
  | none => (.fullAdditive a b i none, .error .attributeError)
  | some l =>
    match m1.hstack m2 >>= fun h => l.train env h p with
    | .error e => (.fullAdditive a b l.hasIntercept (some l), .error e)
    | .ok r =>
      match TMat.wrap r.ty (r.val.selRows ((List.range r.nr).take m1.nc)) with
      | .error e => (.fullAdditive a b l.hasIntercept (some l), .error e)
      | .ok x =>
        match TMat.wrap r.ty (r.val.selRows ((List.range r.nr).drop m1.nc)) with
        | .error e => (.fullAdditive (some x) b l.hasIntercept (some l), .error e)
        | .ok y => (.fullAdditive (some x) (some y) l.hasIntercept (some l), .ok ())

/-- A computation whose only assignments come after everything that can raise: `_train2` (`weighted_additive.py:113-119`)
and `_train` of `Dilation` (`dilation.py:57-60`). -/
def assignLast (c : CModel) : Py CModel → CModel × Py Unit
  | .error e => (c, .error e)
  | .ok c' => (c', .ok ())

/-- `xxx` (`composition_model.py:85-96`, `weighted_additive.py:66-95`): the attributes afterwards and the outcome. -/
def CModel.trainOnS (env : Env) (c : CModel) (s1 s2 p : Space κ) (l1 l2 l3 : List κ) : CModel × Py Unit :=
  match c with
  | .multiplicative => (c, .error .typeError)
  | .weighted _ _ => assignLast c (trainWeighted env s1 s2 p l1 l2 l3)
  | .dilation _ => assignLast c (sampleMats s1 s2 p l1 l2 l3 >>= fun m => trainDilation m.1 m.2.1 m.2.2)
  | .fullAdditive a b i learner =>
    match sampleMats s1 s2 p l1 l2 l3 with
    | .error e => (c, .error e)
    | .ok m => trainFullS env a b i learner m.1 m.2.1 m.2.2

/-- The usable data (`composition_model.py:61-66`). -/
def trainLists (data : List (Triple κ)) (args : ArgSpace κ) (phrase : Space κ) :
    Py (Space κ × Space κ × List κ × List κ × List κ) := do
  let (s1, s2) ← args.extract
  let (l1, l2, l3) ← validData data (some s1.row2id) (some s2.row2id) (some phrase.row2id)
  return (s1, s2, l1, l2, l3)

/-- `model.train(data, args, phrase)` (`composition_model.py:36-82`, `multiplicative.py:29-33`): the object afterwards and
the outcome. `composed_id2column` is assigned last (line 72). -/
def Composer.trainS (env : Env) (c : Composer κ) (data : List (Triple κ)) (args : ArgSpace κ) (phrase : Space κ) :
    Composer κ × Py Unit :=
  if c.model.trainable then
    match trainLists data args phrase with
    | .error e => (c, .error e)
    | .ok (s1, s2, l1, l2, l3) =>
      match c.model.trainOnS env s1 s2 phrase l1 l2 l3 with
      | (m, .error e) => (⟨m, c.columns⟩, .error e)
      | (m, .ok ()) => (⟨m, some phrase.id2col⟩, .ok ())
  else (c, .error .typeError)

/-- `LexicalFunction.train` from line 118 up to the stacked matrix (`lexical_function.py:118-159`): nothing is assigned to
the object. The result: the matrix, the function words and the shape of a function. -/
def LexFun.learned (env : Env) (le : κ → κ → Bool) (m : LexFun κ) (data : List (Triple κ)) (arg phrase : Space κ) :
    Py (TMat ℝ × List κ × List ℕ) := do
  let sorted := data.mergeSort (fun x y => le x.1 y.1)
  let (fl, al, pl) ← validData sorted none (some arg.row2id) (some phrase.row2id)
  let (keys, ranges) ← getPartitions fl m.minSamples
  if keys = [] then .error .valueError
  else match arg.elemShape with
    | [n] => do
      let shape := phrase.elemShape ++ [if m.learner.hasIntercept then n + 1 else n]
      let rs ← lexTrainLoop env m.learner arg phrase al pl shape.prod ranges
      match rs.getLast? with
      | none => .error .unboundLocalError
      | some (_, ty) => do
        let mat ← TMat.naryVstack ty (rs.map Prod.fst)
        return (mat, keys, shape)
    | _ => .error .assertionError

/-- `LexicalFunction.train` (`lexical_function.py:86-175`): the object afterwards and the outcome. The intercept flag is
assigned first (line 113), the column labels after the regressions (line 161), the function space last (line 163). -/
def LexFun.trainS (env : Env) (le : κ → κ → Bool) (m : LexFun κ) (data : List (Triple κ)) (arg phrase : Space κ) :
    LexFun κ × Py Unit :=
  let m1 : LexFun κ := { m with intercept := m.learner.hasIntercept }
  match m.learned env le data arg phrase with
  | .error e => (m1, .error e)
  | .ok (mat, keys, shape) =>
    let m2 : LexFun κ := { m1 with columns := phrase.id2col }
    match Space.new mat keys [] none none [] (some shape) with
    | .error e => (m2, .error e)
    | .ok fs => ({ m2 with functions := some fs }, .ok ())

/-- A call on a `WeightedAdditive`, `Dilation`, `Multiplicative` or `FullAdditive` object
(`composition_model.py:36-141`). -/
inductive ModelCall (κ : Type)
  | train (data : List (Triple κ)) (args : ArgSpace κ) (phrase : Space κ)
  | compose (data : List (Triple κ)) (args : ArgSpace κ)

/-- One call (`composition_model.py:36-141`): the object afterwards and whether it raised. -/
def Composer.call (env : Env) (c : Composer κ) : ModelCall κ → Composer κ × Py Unit
  | .train data args phrase => c.trainS env data args phrase
  | .compose data args => ((c.compose data args).1, (c.compose data args).2.map fun _ => ())

/-- A sequence of calls (`composition_model.py:36-141`); exceptions are caught by the caller, who goes on. -/
def Composer.session (env : Env) (c : Composer κ) : List (ModelCall κ) → Composer κ
  | [] => c
  | x :: xs => Composer.session env (c.call env x).1 xs

end
end Dissect
