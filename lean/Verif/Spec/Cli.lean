import Verif.Model.Cli

/-!
# Specification: what the usage texts promise about command lines

Written from the usage texts (`usage()` of each script), not from `main`.
-/

namespace Dissect

/-- A documented option taking a value: the variable it is meant to set, its letter (if any), its long name (which is
also its name in the configuration file), whether the value is a comma-separated list, and the default. -/
structure DocOpt where
  var : Str
  short : Option Char
  long : Str
  csv : Bool
  dflt : OptVal
  deriving DecidableEq

/-- The meaning of the text given for an option. -/
def DocOpt.value (o : DocOpt) (raw : Str) : OptVal := if o.csv then .list (splitCh ',' raw) else .str raw

/-- The ways of writing an option with a value: `-x v`, `-xv`, `--name v`, `--name=v`. -/
inductive Spelling
  | shortSep (c : Char)
  | shortJoined (c : Char)
  | longSep
  | longEq

/-- An option as given by the user. -/
structure Given where
  opt : DocOpt
  how : Spelling
  value : Str

/-- The command-line words. -/
def Given.render (g : Given) : List Str :=
  match g.how with
  | .shortSep c => [['-', c], g.value]
  | .shortJoined c => ['-' :: c :: g.value]
  | .longSep => [['-', '-'] ++ g.opt.long, g.value]
  | .longEq => [['-', '-'] ++ g.opt.long ++ ['='] ++ g.value]

/-- The spelling is one the option has; the joined form needs a non-empty value. -/
def Given.Valid (docs : List DocOpt) (g : Given) : Prop :=
  g.opt ∈ docs ∧
  match g.how with
  | .shortSep c => g.opt.short = some c
  | .shortJoined c => g.opt.short = some c ∧ g.value ≠ []
  | .longSep => True
  | .longEq => True

/-- The text of the last occurrence of an option on the command line. -/
def lastGiven (gs : List Given) (o : DocOpt) : Option Str :=
  ((gs.filter (fun g => decide (g.opt.long = o.long))).getLast?).map Given.value

/-- What an option should end up as: the last occurrence on the command line, else the configuration file, else the
default. -/
def wanted (gs : List Given) (cfg : Str → Option Str) (o : DocOpt) : OptVal :=
  match lastGiven gs o with
  | some v => o.value v
  | none => match cfg o.long with
    | some v => o.value v
    | none => o.dflt

/-- `build_core_space.py:39-72`. The default of `gz` is documented as `False`. -/
def docCore : List DocOpt := [
  ⟨cs!"in_file_prefix", some 'i', cs!"input", false, .none⟩,
  ⟨cs!"out_dir", some 'o', cs!"output", false, .none⟩,
  ⟨cs!"weightings", some 'w', cs!"weighting", true, .none⟩,
  ⟨cs!"selections", some 's', cs!"selection", true, .none⟩,
  ⟨cs!"reductions", some 'r', cs!"reduction", true, .none⟩,
  ⟨cs!"normalizations", some 'n', cs!"normalization", true, .none⟩,
  ⟨cs!"log_file", some 'l', cs!"log", false, .none⟩,
  ⟨cs!"in_format", none, cs!"input_format", false, .none⟩,
  ⟨cs!"gz", none, cs!"gz", false, .str cs!"False"⟩,
  ⟨cs!"out_format", none, cs!"output_format", false, .none⟩]

/-- `build_peripheral_space.py:29-54`. -/
def docPeriph : List DocOpt := [
  ⟨cs!"in_file_prefix", some 'i', cs!"input", false, .none⟩,
  ⟨cs!"out_dir", some 'o', cs!"output", false, .none⟩,
  ⟨cs!"core_space_file", some 'c', cs!"core", false, .none⟩,
  ⟨cs!"core_in_dir", none, cs!"core_in_dir", false, .none⟩,
  ⟨cs!"core_filter", none, cs!"core_filter", false, .str cs!""⟩,
  ⟨cs!"log_file", some 'l', cs!"log", false, .str cs!"./build_core_space.log"⟩,
  ⟨cs!"in_format", none, cs!"input_format", false, .none⟩,
  ⟨cs!"out_format", none, cs!"output_format", false, .none⟩]

/-- `train_composition.py:39-71`, without `--crossvalidation`, whose documented default the code does not have. -/
def docTrain : List DocOpt := [
  ⟨cs!"in_file", some 'i', cs!"input", false, .none⟩,
  ⟨cs!"out_dir", some 'o', cs!"output", false, .none⟩,
  ⟨cs!"model", some 'm', cs!"model", false, .none⟩,
  ⟨cs!"regression", some 'r', cs!"regression", false, .none⟩,
  ⟨cs!"intercept", none, cs!"intercept", false, .str cs!"True"⟩,
  ⟨cs!"param", none, cs!"lambda", false, .none⟩,
  ⟨cs!"param_range", none, cs!"lambda_range", true, .none⟩,
  ⟨cs!"arg_space", some 'a', cs!"arg_space", true, .none⟩,
  ⟨cs!"phrase_space", some 'p', cs!"phrase_space", false, .none⟩,
  ⟨cs!"export_params", none, cs!"export_params", false, .str cs!"False"⟩,
  ⟨cs!"log_file", some 'l', cs!"log", false, .none⟩]

/-- `--crossvalidation` as documented (`train_composition.py:50`): default `True`. -/
def docCrossvalidation : DocOpt := ⟨cs!"crossvalidation", none, cs!"crossvalidation", false, .str cs!"True"⟩

/-- `apply_composition.py:24-54`. -/
def docApply : List DocOpt := [
  ⟨cs!"in_file", some 'i', cs!"input", false, .none⟩,
  ⟨cs!"out_dir", some 'o', cs!"output", false, .none⟩,
  ⟨cs!"model", some 'm', cs!"model", false, .none⟩,
  ⟨cs!"alpha", none, cs!"alpha", false, .none⟩,
  ⟨cs!"beta", none, cs!"beta", false, .none⟩,
  ⟨cs!"lambda_", none, cs!"lambda", false, .none⟩,
  ⟨cs!"trained_model", none, cs!"load_model", false, .none⟩,
  ⟨cs!"arg_space", some 'a', cs!"arg_space", true, .none⟩,
  ⟨cs!"out_format", none, cs!"output_format", false, .none⟩,
  ⟨cs!"log_file", some 'l', cs!"log", false, .none⟩]

/-- `compute_similarities.py:39-64`, without `--sim_measure`, which is not looked up in the configuration file under that
name; the documented default of `--log` is `docLogDefault`, here it is the one of the code. -/
def docSims : List DocOpt := [
  ⟨cs!"in_file", some 'i', cs!"input", false, .none⟩,
  ⟨cs!"out_dir", some 'o', cs!"output", false, .none⟩,
  ⟨cs!"spaces", some 's', cs!"space", true, .none⟩,
  ⟨cs!"in_dir", none, cs!"in_dir", false, .none⟩,
  ⟨cs!"columns", some 'c', cs!"columns", true, .none⟩,
  ⟨cs!"log_file", some 'l', cs!"log", false, .none⟩]

/-- `--sim_measure` as documented for `compute_similarities.py` (lines 51). -/
def docSimMeasure : DocOpt := ⟨cs!"sim_measures", some 'm', cs!"sim_measure", true, .none⟩

/-- `compute_neighbours.py:36-57`, without `--sim_measure` (see C70); the default of `--no_neighbours` is 20. -/
def docNeigh : List DocOpt := [
  ⟨cs!"in_file", some 'i', cs!"input", false, .none⟩,
  ⟨cs!"out_dir", some 'o', cs!"output", false, .none⟩,
  ⟨cs!"spaces", some 's', cs!"space", true, .none⟩,
  ⟨cs!"no_neighbours", some 'n', cs!"no_neighbours", false, .str cs!"20"⟩,
  ⟨cs!"log_file", some 'l', cs!"log", false, .none⟩]

/-- `--log` as documented for `compute_similarities.py` (line 54) and `evaluate_similarities.py` (line 47). -/
def docLogDefault : DocOpt := ⟨cs!"log_file", some 'l', cs!"log", false, .str cs!"./build_core_space.log"⟩

/-- `evaluate_similarities.py:33-56`; the documented default of `--log` is `docLogDefault`, here it is the one of the
code. -/
def docEval : List DocOpt := [
  ⟨cs!"in_file", some 'i', cs!"input", false, .none⟩,
  ⟨cs!"in_dir", none, cs!"in_dir", false, .none⟩,
  ⟨cs!"filter_", none, cs!"filter", false, .str cs!""⟩,
  ⟨cs!"corr_measures", some 'm', cs!"correlation_measure", true, .none⟩,
  ⟨cs!"columns", some 'c', cs!"columns", true, .none⟩,
  ⟨cs!"log_file", some 'l', cs!"log", false, .none⟩]

/-- The scripts with their documented options. -/
def documentedScripts : List (Cli × List DocOpt) :=
  [(cliCore, docCore), (cliPeriph, docPeriph), (cliTrain, docTrain), (cliApply, docApply), (cliSims, docSims),
   (cliNeigh, docNeigh), (cliEval, docEval)]

end Dissect
