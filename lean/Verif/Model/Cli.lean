import Verif.Model.Getopt
import Verif.Model.Fs

/-!
# Command lines and configuration files of the pipelines

`/repo/src/pipelines/*.py`: every `main` has the same shape. The `if opt in (...)` chain is represented by a table with
one row per branch; each table cites the lines it transcribes.
-/

namespace Dissect

/-- How a script ends other than normally: `sys.exit(code)` or an uncaught exception. -/
inductive MainErr
  | exit (code : ℕ)
  | raised (e : PyErr)
  deriving DecidableEq, Repr

/-- Outcome of a script. -/
abbrev Main (α : Type) := Except MainErr α

/-- An exception that a script does not catch. -/
def Main.lift {α : Type} : Py α → Main α
  | .ok x => .ok x
  | .error e => .error (.raised e)

/-- `s.split(c)` for a one-character separator (Python builtin); `cur` is the piece being read. -/
def splitChAux (c : Char) (cur : Str) : Str → List Str
  | [] => [cur]
  | x :: xs => if x = c then cur :: splitChAux c [] xs else splitChAux c (cur ++ [x]) xs

/-- `s.split(c)` (Python builtin). -/
def splitCh (c : Char) (s : Str) : List Str := splitChAux c [] s

/-- The value of a configuration variable of a script: `None` (or `[None]`), a string, a list of strings. -/
inductive OptVal
  | none
  | str (s : Str)
  | list (l : List Str)
  deriving DecidableEq, Repr

/-- One configuration variable of a script: its name in the source, the option spellings tested in the `elif` chain, the
option name looked up in the configuration file, whether the value is split at commas, the default. -/
structure OptRow where
  var : Str
  flags : List Str
  cfg : Str
  csv : Bool
  dflt : OptVal

/-- The command-line interface of a script: the `ConfigParser` section, the two arguments of `getopt`, the variables,
and whether the configuration file is opened before it is parsed. -/
structure Cli where
  sect : Str
  short : Str
  longs : List Str
  rows : List OptRow
  mustOpen : Bool

/-- The variables of `main` during option processing, by name. -/
abbrev Settings := Str → OptVal

/-- `val` or `val.split(",")`. -/
def OptRow.value (r : OptRow) (raw : Str) : OptVal := if r.csv then .list (splitCh ',' raw) else .str raw

/-- Assignment to a variable. -/
def Settings.set (st : Settings) (x : Str) (v : OptVal) : Settings := fun y => if y = x then v else st y

/-- A parsed configuration file: the value of an option in a section, if there is one (`has_option` / `get`).
Simplification: no `%` interpolation. -/
abbrev Config := Str → Str → Option Str

namespace Cli

/-- The initial values (`build_core_space.py:234-243` and the same place of the other scripts). -/
def defaults (c : Cli) : Settings := fun x =>
  match c.rows.find? (fun r => decide (r.var = x)) with
  | some r => r.dflt
  | none => .none

/-- `utils.config_get(section, config, option, default)` for every variable (`pipeline_utils.py:22-23`,
`build_core_space.py:252-273` and the same place of the other scripts). -/
def fromConfig (c : Cli) (cfg : Config) : Settings := fun x =>
  match c.rows.find? (fun r => decide (r.var = x)) with
  | some r => match cfg c.sect r.cfg with
    | some raw => r.value raw
    | none => r.dflt
  | none => .none

/-- The variables before the option loop: with exactly one positional argument it names the configuration file
(`build_core_space.py:246-273`); `ConfigParser.read` ignores a file that cannot be opened, but two scripts open it
themselves first. `parse` is what `ConfigParser` makes of the text. -/
def initial (c : Cli) (parse : Str → Py Config) (fs : Fs) (rest : List Str) : Main Settings :=
  match rest with
  | [f] => match fs.read f with
    | .ok txt => match parse txt with
      | .ok cfg => .ok (c.fromConfig cfg)
      | .error e => .error (.raised e)
    | .error e => if c.mustOpen then .error (.raised e) else .ok c.defaults
  | _ => .ok c.defaults

/-- The option loop (`build_core_space.py:275-299` and the same place of the other scripts): `usage(0)` for help,
`usage(1)` for an option no branch handles. -/
def optLoop (c : Cli) : List OptPair → Settings → Main Settings
  | [], st => .ok st
  | (o, v) :: ps, st =>
    match c.rows.find? (fun r => decide (o ∈ r.flags)) with
    | some r => optLoop c ps (st.set r.var (r.value v))
    | none => if o = cs!"-h" ∨ o = cs!"--help" then .error (.exit 0) else .error (.exit 1)

/-- `main` up to the end of the option loop. On `GetoptError` the scripts call `usage()`, which exits with status 0
before `sys.exit(1)` is reached (`build_core_space.py:229-232` and the same place of the other scripts). -/
def parseArgs (c : Cli) (parse : Str → Py Config) (fs : Fs) (argv : List Str) : Main Settings :=
  match getopt c.short c.longs argv with
  | none => .error (.exit 0)
  | some (opts, rest) => do
    let st ← c.initial parse fs rest
    c.optLoop opts st

end Cli

/-! ### The seven scripts -/

/-- `build_core_space.py:224-299`. -/
def cliCore : Cli where
  sect := cs!"build_core_space"
  short := cs!"hi:o:w:s:r:n:l:"
  longs := [cs!"help", cs!"input=", cs!"output=", cs!"weighting=", cs!"selection=", cs!"reduction=",
    cs!"normalization=", cs!"log=", cs!"gz=", cs!"input_format=", cs!"output_format="]
  rows := [
    ⟨cs!"in_file_prefix", [cs!"-i", cs!"--input"], cs!"input", false, .none⟩,
    ⟨cs!"out_dir", [cs!"-o", cs!"--output"], cs!"output", false, .none⟩,
    ⟨cs!"gz", [cs!"--gz"], cs!"gz", false, .str cs!"False"⟩,
    ⟨cs!"weightings", [cs!"-w", cs!"--weighting"], cs!"weighting", true, .none⟩,
    ⟨cs!"selections", [cs!"-s", cs!"--selection"], cs!"selection", true, .none⟩,
    ⟨cs!"reductions", [cs!"-r", cs!"--reduction"], cs!"reduction", true, .none⟩,
    ⟨cs!"normalizations", [cs!"-n", cs!"--normalization"], cs!"normalization", true, .none⟩,
    ⟨cs!"log_file", [cs!"-l", cs!"--log"], cs!"log", false, .none⟩,
    ⟨cs!"in_format", [cs!"--input_format"], cs!"input_format", false, .none⟩,
    ⟨cs!"out_format", [cs!"--output_format"], cs!"output_format", false, .none⟩]
  mustOpen := true

/-- `build_peripheral_space.py:127-185`. -/
def cliPeriph : Cli where
  sect := cs!"build_peripheral_space"
  short := cs!"hi:o:c:l:"
  longs := [cs!"help", cs!"input=", cs!"output=", cs!"core=", cs!"log=", cs!"input_format=", cs!"output_format=",
    cs!"core_in_dir=", cs!"core_filter=", cs!"gz="]
  rows := [
    ⟨cs!"in_file_prefix", [cs!"-i", cs!"--input"], cs!"input", false, .none⟩,
    ⟨cs!"out_dir", [cs!"-o", cs!"--output"], cs!"output", false, .none⟩,
    ⟨cs!"gz", [cs!"--gz"], cs!"gz", false, .str cs!"False"⟩,
    ⟨cs!"core_space_file", [cs!"-c", cs!"--core"], cs!"core", false, .none⟩,
    ⟨cs!"log_file", [cs!"-l", cs!"--log"], cs!"log", false, .str cs!"./build_core_space.log"⟩,
    ⟨cs!"in_format", [cs!"--input_format"], cs!"input_format", false, .none⟩,
    ⟨cs!"out_format", [cs!"--output_format"], cs!"output_format", false, .none⟩,
    ⟨cs!"core_in_dir", [cs!"--core_in_dir"], cs!"core_in_dir", false, .none⟩,
    ⟨cs!"core_filter", [cs!"--core_filter"], cs!"core_filter", false, .str cs!""⟩]
  mustOpen := false

/-- `train_composition.py:134-210`. -/
def cliTrain : Cli where
  sect := cs!"train_composition"
  short := cs!"hi:o:m:r:a:p:l:"
  longs := [cs!"help", cs!"input=", cs!"output=", cs!"model=", cs!"regression=", cs!"intercept=", cs!"arg_space=",
    cs!"phrase_space=", cs!"export_params=", cs!"log=", cs!"crossvalidation=", cs!"lambda_range=", cs!"lambda="]
  rows := [
    ⟨cs!"in_file", [cs!"-i", cs!"--input"], cs!"input", false, .none⟩,
    ⟨cs!"out_dir", [cs!"-o", cs!"--output"], cs!"output", false, .none⟩,
    ⟨cs!"model", [cs!"-m", cs!"--model"], cs!"model", false, .none⟩,
    ⟨cs!"arg_space", [cs!"-a", cs!"--arg_space"], cs!"arg_space", true, .none⟩,
    ⟨cs!"phrase_space", [cs!"-p", cs!"--phrase_space"], cs!"phrase_space", false, .none⟩,
    ⟨cs!"regression", [cs!"-r", cs!"--regression"], cs!"regression", false, .none⟩,
    ⟨cs!"crossvalidation", [cs!"--crossvalidation"], cs!"crossvalidation", false, .str cs!"False"⟩,
    ⟨cs!"intercept", [cs!"--intercept"], cs!"intercept", false, .str cs!"True"⟩,
    ⟨cs!"param", [cs!"--lambda"], cs!"lambda", false, .none⟩,
    ⟨cs!"param_range", [cs!"--lambda_range"], cs!"lambda_range", true, .none⟩,
    ⟨cs!"export_params", [cs!"--export_params"], cs!"export_params", false, .str cs!"False"⟩,
    ⟨cs!"log_file", [cs!"-l", cs!"--log"], cs!"log", false, .none⟩]
  mustOpen := false

/-- `apply_composition.py:112-178`. -/
def cliApply : Cli where
  sect := cs!"apply_composition"
  short := cs!"hi:o:m:a:l:"
  longs := [cs!"help", cs!"input=", cs!"output=", cs!"model=", cs!"alpha=", cs!"beta=", cs!"lambda=", cs!"arg_space=",
    cs!"load_model=", cs!"output_format=", cs!"log="]
  rows := [
    ⟨cs!"in_file", [cs!"-i", cs!"--input"], cs!"input", false, .none⟩,
    ⟨cs!"out_dir", [cs!"-o", cs!"--output"], cs!"output", false, .none⟩,
    ⟨cs!"model", [cs!"-m", cs!"--model"], cs!"model", false, .none⟩,
    ⟨cs!"arg_space", [cs!"-a", cs!"--arg_space"], cs!"arg_space", true, .none⟩,
    ⟨cs!"trained_model", [cs!"--load_model"], cs!"load_model", false, .none⟩,
    ⟨cs!"alpha", [cs!"--alpha"], cs!"alpha", false, .none⟩,
    ⟨cs!"beta", [cs!"--beta"], cs!"beta", false, .none⟩,
    ⟨cs!"lambda_", [cs!"--lambda"], cs!"lambda", false, .none⟩,
    ⟨cs!"out_format", [cs!"--output_format"], cs!"output_format", false, .none⟩,
    ⟨cs!"log_file", [cs!"-l", cs!"--log"], cs!"log", false, .none⟩]
  mustOpen := false

/-- `compute_similarities.py:133-188`. -/
def cliSims : Cli where
  sect := cs!"compute_similarities"
  short := cs!"hi:o:s:m:c:l:"
  longs := [cs!"help", cs!"input=", cs!"output=", cs!"sim_measures=", cs!"space=", cs!"in_dir=", cs!"columns=", cs!"log="]
  rows := [
    ⟨cs!"in_file", [cs!"-i", cs!"--input"], cs!"input", false, .none⟩,
    ⟨cs!"out_dir", [cs!"-o", cs!"--output"], cs!"output", false, .none⟩,
    ⟨cs!"in_dir", [cs!"--in_dir"], cs!"in_dir", false, .none⟩,
    ⟨cs!"sim_measures", [cs!"-m", cs!"--sim_measures"], cs!"sim_measures", true, .none⟩,
    ⟨cs!"spaces", [cs!"-s", cs!"--space"], cs!"space", true, .none⟩,
    ⟨cs!"columns", [cs!"-c", cs!"--columns"], cs!"columns", true, .none⟩,
    ⟨cs!"log_file", [cs!"-l", cs!"--log"], cs!"log", false, .none⟩]
  mustOpen := false

/-- `compute_neighbours.py:95-145`: `getopt` knows `--sim_measures`, the chain tests `--sim_measure`. -/
def cliNeigh : Cli where
  sect := cs!"compute_neighbours"
  short := cs!"hi:o:s:m:n:l:"
  longs := [cs!"help", cs!"input=", cs!"output=", cs!"sim_measures=", cs!"space=", cs!"log=", cs!"no_neighbours="]
  rows := [
    ⟨cs!"in_file", [cs!"-i", cs!"--input"], cs!"input", false, .none⟩,
    ⟨cs!"out_dir", [cs!"-o", cs!"--output"], cs!"output", false, .none⟩,
    ⟨cs!"sim_measure", [cs!"-m", cs!"--sim_measure"], cs!"sim_measure", false, .none⟩,
    ⟨cs!"spaces", [cs!"-s", cs!"--space"], cs!"space", true, .none⟩,
    ⟨cs!"no_neighbours", [cs!"-n", cs!"--no_neighbours"], cs!"no_neighbours", false, .str cs!"20"⟩,
    ⟨cs!"log_file", [cs!"-l", cs!"--log"], cs!"log", false, .none⟩]
  mustOpen := true

/-- `evaluate_similarities.py:97-147`. -/
def cliEval : Cli where
  sect := cs!"evaluate_similarities"
  short := cs!"hi:m:c:l:"
  longs := [cs!"help", cs!"input=", cs!"correlation_measure=", cs!"columns=", cs!"log=", cs!"in_dir=", cs!"filter="]
  rows := [
    ⟨cs!"in_file", [cs!"-i", cs!"--input"], cs!"input", false, .none⟩,
    ⟨cs!"corr_measures", [cs!"-m", cs!"--correlation_measure"], cs!"correlation_measure", true, .none⟩,
    ⟨cs!"columns", [cs!"-c", cs!"--columns"], cs!"columns", true, .none⟩,
    ⟨cs!"in_dir", [cs!"--in_dir"], cs!"in_dir", false, .none⟩,
    ⟨cs!"filter_", [cs!"--filter"], cs!"filter", false, .str cs!""⟩,
    ⟨cs!"log_file", [cs!"-l", cs!"--log"], cs!"log", false, .none⟩]
  mustOpen := false

end Dissect
