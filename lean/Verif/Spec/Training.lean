import Verif.Model.Pipeline
import Verif.Spec.Io
import Verif.Spec.Regression
import Verif.Spec.Pipeline

/-!
# Specification: what the options of the composition scripts mean

Written from the usage texts of `train_composition.py:29-71` and `apply_composition.py:24-54`.
-/

namespace Dissect
noncomputable section

/-- `data` are the triples of a data file: the first three words of every non-blank line. -/
def TriplesOf (content : Str) (data : List (Triple Str)) : Prop :=
  List.Forall₂ (fun t (d : Triple Str) => ∃ rest, t = d.1 :: d.2.1 :: d.2.2 :: rest) (records content) data

/-- A file holds a pickled space. -/
def HoldsSpace (L : Lib) (fs : Fs) (f : Str) (s : Space Str) : Prop :=
  ∃ txt, fs.read f = .ok txt ∧ L.undump txt = some (.space s)

/-- The argument spaces: with two files one space for each constituent, otherwise the first file for both. -/
inductive ArgsFrom (L : Lib) (fs : Fs) : List Str → Space Str → ArgSpace Str → Prop
  | two {f g : Str} {s t : Space Str} : HoldsSpace L fs f s → HoldsSpace L fs g t → ArgsFrom L fs [f, g] s (.tuple [s, t])
  | one {f : Str} {gs : List Str} {s : Space Str} : HoldsSpace L fs f s → gs.length ≠ 1 → ArgsFrom L fs (f :: gs) s (.one s)

/-- The learner described by `-r`, `--crossvalidation`, `--intercept`, `--lambda`, `--lambda_range`; the parameter attribute
of a cross-validated ridge learner is not used by training. Without `-r` it is the default of the model classes. -/
inductive DocLearner : Option Str → Bool → Bool → Option ℝ → Option (List ℝ) → Learner → Prop
  | ridgeCv {ic : Bool} {lam : Option ℝ} {range : Option (List ℝ)} (p : Option ℝ) :
      DocLearner (some cs!"ridge") true ic lam range (.ridge ic true (range.getD lambdaGrid) p)
  | ridge {ic : Bool} {x : ℝ} {range : Option (List ℝ)} :
      DocLearner (some cs!"ridge") false ic (some x) range (.ridge ic false (range.getD lambdaGrid) (some x))
  | lstsq {cv ic : Bool} {lam : Option ℝ} {range : Option (List ℝ)} :
      DocLearner (some cs!"lstsq") cv ic lam range (.lstsq ic)
  | default {r : Option Str} {cv ic : Bool} {lam : Option ℝ} {range : Option (List ℝ)} :
      r ≠ some cs!"ridge" → r ≠ some cs!"lstsq" → DocLearner r cv ic lam range (.lstsq true)

/-- `obj` is the model named `model`, created with its defaults (or the learner, for the models that use one) and
trained on the triples with the argument and phrase spaces. -/
inductive Trained (env : Env) (isLearner : Learner → Prop) (first : Space Str) (args : ArgSpace Str) (phrase : Space Str)
    (data : List (Triple Str)) : Str → PyObj → Prop
  | weighted {c : Composer Str} : Composer.train env ⟨.weighted (1 / 2) (1 / 2), none⟩ data args phrase = .ok c →
      Trained env isLearner first args phrase data cs!"weighted_add" (.composer c)
  | dilation {c : Composer Str} : Composer.train env ⟨.dilation 2, none⟩ data args phrase = .ok c →
      Trained env isLearner first args phrase data cs!"dilation" (.composer c)
  | full {l : Learner} {c : Composer Str} : isLearner l →
      Composer.train env (newFullAdditiveLearner l) data args phrase = .ok c →
      Trained env isLearner first args phrase data cs!"full_add" (.composer c)
  | lexical {l : Learner} {m : LexFun Str} : isLearner l →
      LexFun.train env strLe (LexFun.ofLearner l) data first phrase = .ok m →
      Trained env isLearner first args phrase data cs!"lexical_func" (.lexfun m)

/-- The name of the trained model without extension. -/
def trainedFile (outDir model base : Str) : Str := outDir ++ cs!"/TRAINED_COMP_MODEL." ++ model ++ ['.'] ++ base

/-- The number given by an option, if it is given. -/
def NumOpt (io : NumIO) (v : OptVal) (x : Option ℝ) : Prop :=
  match v.asStr with
  | none => x = none
  | some s => ∃ y, io.parse s = some y ∧ x = some y

/-- The numbers given by a list option, if it is given. -/
def NumsOpt (io : NumIO) (v : OptVal) (x : Option (List ℝ)) : Prop :=
  match v.asList with
  | none => x = none
  | some l => ∃ ys, List.Forall₂ (fun s y => io.parse s = some y) l ys ∧ x = some ys

end
end Dissect
