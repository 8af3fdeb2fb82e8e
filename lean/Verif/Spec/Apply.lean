import Verif.Spec.Training

/-!
# Specification: `apply_composition.py`

Written from the usage text (`apply_composition.py:24-54`) and the documentation of the model classes
(`weighted_additive.py:14-34`, `dilation.py:13-25`).
-/

namespace Dissect
noncomputable section

/-- The model object a name stands for: defaults are `alpha = 1/2`, `beta = 1 - alpha`, `lambda = 2`. -/
inductive NamedModel (alpha beta lam : Option ℝ) : Str → PyObj → Prop
  | weighted : NamedModel alpha beta lam cs!"weighted_add"
      (.composer ⟨.weighted (alpha.getD (1 / 2)) (beta.getD (1 - alpha.getD (1 / 2))), none⟩)
  | dilation : NamedModel alpha beta lam cs!"dilation" (.composer ⟨.dilation (lam.getD 2), none⟩)
  | mult : NamedModel alpha beta lam cs!"mult" (.composer ⟨.multiplicative, none⟩)

/-- A file holds a pickled composition model. -/
def HoldsModel (L : Lib) (fs : Fs) (f : Str) (m : PyObj) : Prop :=
  ∃ txt, fs.read f = .ok txt ∧ L.undump txt = some m ∧ ((∃ c, m = .composer c) ∨ ∃ l, m = .lexfun l)

/-- `m` is the model selected by `--model` or `--load_model`. -/
def SelectedModel (L : Lib) (fs : Fs) (alpha beta lam : Option ℝ) (model trained : Option Str) (m : PyObj) : Prop :=
  (∃ nm, model = some nm ∧ NamedModel alpha beta lam nm m) ∨
  (model = none ∧ ∃ f, trained = some f ∧ HoldsModel L fs f m)

/-- The class of a model object. -/
inductive ClassOf : PyObj → Str → Prop
  | weighted {a b : ℝ} {i : Option (List Str)} : ClassOf (.composer ⟨.weighted a b, i⟩) cs!"WeightedAdditive"
  | dilation {l : ℝ} {i : Option (List Str)} : ClassOf (.composer ⟨.dilation l, i⟩) cs!"Dilation"
  | mult {i : Option (List Str)} : ClassOf (.composer ⟨.multiplicative, i⟩) cs!"Multiplicative"
  | full {a b : Option (TMat ℝ)} {ic : Bool} {l : Option Learner} {i : Option (List Str)} :
      ClassOf (.composer ⟨.fullAdditive a b ic l, i⟩) cs!"FullAdditive"
  | lexical {m : LexFun Str} : ClassOf (.lexfun m) cs!"LexicalFunction"

/-- `res` is the space composed by the model from the triples: the lexical function uses the first argument space only. -/
inductive ComposedBy (first : Space Str) (args : ArgSpace Str) (data : List (Triple Str)) (res : Space Str) : PyObj → Prop
  | composer {c c' : Composer Str} : c.compose data args = (c', .ok res) → ComposedBy first args data res (.composer c)
  | lexical {m : LexFun Str} : m.compose data first = .ok res → ComposedBy first args data res (.lexfun m)

/-- The name of the composed space without extension. -/
def composedFile (outDir cls base : Str) : Str := outDir ++ cs!"/COMPOSED_SS." ++ cls ++ ['.'] ++ base

end
end Dissect
