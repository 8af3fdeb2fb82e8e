import Verif.Model.Conc

/-!
# What "do not get in each other's way" means

A process that runs alone has a result, a final disk, a number of system calls, and two sets of nodes: those whose state
it looks at, and those it changes. Everything here speaks about single processes; the interleavings are in
`Model/Conc.lean`.
-/

namespace Dissect
noncomputable section

namespace Prog
variable {α : Type}

/-- The process runs alone on a disk: its outcome and the disk afterwards. -/
def solo : Prog α → Fs → Main α × Fs
  | ret a, fs => (.ok a, fs)
  | raise e, fs => (.error e, fs)
  | stat p k, fs => (k (fs.exists_ p)).solo fs
  | list p k, fs => (k (fs.listdir id p)).solo fs
  | mkdir p k, fs => (k (fs.mkdirCall p).1).solo (fs.mkdirCall p).2
  | read p k, fs => (k (fs.read p)).solo fs
  | openW p k, fs => (k (fs.openCall p).1).solo (fs.openCall p).2
  | put node off c k, fs => k.solo (fs.putCall node off c)

/-- The number of system calls the process makes when it runs alone. -/
def steps : Prog α → Fs → ℕ
  | ret _, _ => 0
  | raise _, _ => 0
  | stat p k, fs => (k (fs.exists_ p)).steps fs + 1
  | list p k, fs => (k (fs.listdir id p)).steps fs + 1
  | mkdir p k, fs => (k (fs.mkdirCall p).1).steps (fs.mkdirCall p).2 + 1
  | read p k, fs => (k (fs.read p)).steps fs + 1
  | openW p k, fs => (k (fs.openCall p).1).steps (fs.openCall p).2 + 1
  | put node off c k, fs => k.steps (fs.putCall node off c) + 1

/-- The nodes the process looks at or changes when it runs alone: the nodes its paths name, the parent directories of
what it creates, and the entries of the directories it lists. -/
def touches : Prog α → Fs → List Str → Prop
  | ret _, _, _ => False
  | raise _, _, _ => False
  | stat p k, fs, n => n = fs.resolve p ∨ (k (fs.exists_ p)).touches fs n
  | list p k, fs, n => n = fs.resolve p ∨ (n ≠ [] ∧ n.dropLast = fs.resolve p) ∨ (k (fs.listdir id p)).touches fs n
  | mkdir p k, fs, n => n = fs.resolve p ∨ n = (fs.resolve p).dropLast ∨
      (k (fs.mkdirCall p).1).touches (fs.mkdirCall p).2 n
  | read p k, fs, n => n = fs.resolve p ∨ (k (fs.read p)).touches fs n
  | openW p k, fs, n => n = fs.resolve p ∨ n = (fs.resolve p).dropLast ∨
      (k (fs.openCall p).1).touches (fs.openCall p).2 n
  | put node off c k, fs, n => n = node ∨ k.touches (fs.putCall node off c) n

/-- The nodes the process creates or changes when it runs alone. -/
def writes : Prog α → Fs → List Str → Prop
  | ret _, _, _ => False
  | raise _, _, _ => False
  | stat p k, fs, n => (k (fs.exists_ p)).writes fs n
  | list p k, fs, n => (k (fs.listdir id p)).writes fs n
  | mkdir p k, fs, n => (n = fs.resolve p ∧ (fs.mkdirCall p).1 = none) ∨ (k (fs.mkdirCall p).1).writes (fs.mkdirCall p).2 n
  | read p k, fs, n => (k (fs.read p)).writes fs n
  | openW p k, fs, n => (n = fs.resolve p ∧ ∃ q, (fs.openCall p).1 = .ok q) ∨
      (k (fs.openCall p).1).writes (fs.openCall p).2 n
  | put node off c k, fs, n => n = node ∨ k.writes (fs.putCall node off c) n

/-- Has the process ended? -/
def Done : Prog α → Prop
  | ret _ => True
  | raise _ => True
  | _ => False

end Prog

/-- Two disks agree about a node: it is a directory in both or in neither, and as a file it has the same content. -/
def SameAt (a b : Fs) (n : List Str) : Prop := (n ∈ a.dirs ↔ n ∈ b.dirs) ∧ a.files.get? n = b.files.get? n

/-- No process changes a node that another one looks at, when each of them runs alone. -/
def Sys.Separate {ι α : Type} (s : Sys ι α) : Prop :=
  ∀ i j, i ≠ j → ∀ n, (s.prog i).writes (s.view i) n → ¬ (s.prog j).touches (s.view j) n

/-! ### What the scripts look at and what they produce -/

/-- The node named by a path, for a process whose working directory is `c`. -/
def nodeOf (c : List Str) (p : Str) : List Str := if isAbs p then pathComps p else c ++ pathComps p

namespace Tool

/-- The command line of a script. -/
def cli : Tool → Cli
  | .core => cliCore
  | .periph => cliPeriph
  | .sims => cliSims
  | .neigh => cliNeigh
  | .eval => cliEval
  | .train => cliTrain
  | .apply => cliApply

/-- The configuration file, if the command line names one. -/
def configFile (sc : Tool) (argv : List Str) : Option Str :=
  match getopt sc.cli.short sc.cli.longs argv with
  | some (_, [f]) => some f
  | _ => none

/-- The files of a space stored as text. -/
def spaceFiles (pre fmt : Str) : List Str :=
  [pre ++ cs!".rows", pre ++ cs!".cols", pre ++ ['.'] ++ fmt, pre ++ ['.'] ++ fmt ++ cs!".gz"]

/-- The input files named by the settings. -/
def inputFiles (st : Settings) : Tool → List Str
  | .core => spaceFiles (st cs!"in_file_prefix").strD (st cs!"in_format").strD
  | .periph => (st cs!"core_space_file").strD :: spaceFiles (st cs!"in_file_prefix").strD (st cs!"in_format").strD
  | .sims => (st cs!"in_file").strD :: (st cs!"spaces").asList.getD []
  | .neigh => (st cs!"in_file").strD :: (st cs!"spaces").asList.getD []
  | .eval => [(st cs!"in_file").strD]
  | .train => (st cs!"in_file").strD :: (st cs!"phrase_space").strD :: (st cs!"arg_space").asList.getD []
  | .apply => (st cs!"in_file").strD :: (st cs!"trained_model").strD :: (st cs!"arg_space").asList.getD []

/-- The directory whose files are all read in batch mode. -/
def inputDir (st : Settings) : Tool → Option Str
  | .periph => (st cs!"core_in_dir").asStr
  | .sims => (st cs!"in_dir").asStr
  | .eval => (st cs!"in_dir").asStr
  | _ => none

/-- The extensions of the files in which a space is stored. -/
def spaceExts : List Str := [cs!".pkl", cs!".dm", cs!".sm", cs!".rows", cs!".cols"]

/-- The names (after `out_dir/`) of the files a script may produce. -/
def OutName (st : Settings) : Tool → Str → Prop
  | .core, nm => ∃ w ∈ (st cs!"weightings").asTokens, ∃ s ∈ (st cs!"selections").asTokens,
      ∃ r ∈ (st cs!"reductions").asTokens, ∃ n ∈ (st cs!"normalizations").asTokens, ∃ e ∈ spaceExts,
      nm = joinStr ['.'] (keptOps [some (cs!"CORE_SS." ++ lastComp (st cs!"in_file_prefix").strD), w, s, r, n]) ++ e
  | .periph, nm => ∃ core, (core = (st cs!"core_space_file").strD ∨
      ∃ d, (st cs!"core_in_dir").asStr = some d ∧ withSlash d <+: core) ∧ ∃ e ∈ spaceExts,
      nm = cs!"PER_SS." ++ lastComp (st cs!"in_file_prefix").strD ++ ['.'] ++ stem core ++ e
  | .sims, nm => ∃ files, (files = (st cs!"spaces").asList.getD [] ∨
      ∃ d name, (st cs!"in_dir").asStr = some d ∧ files = [withSlash d ++ name]) ∧
      ∃ m ∈ (st cs!"sim_measures").asList.getD [],
      nm = joinStr ['.'] [cs!"SIMS", lastComp (st cs!"in_file").strD, spacesDescr files] ++ ['.'] ++ m
  | .neigh, nm => nm = joinStr ['.'] [cs!"NEIGHBOURS", lastComp (st cs!"in_file").strD,
      spacesDescr ((st cs!"spaces").asList.getD [])] ++ ['.'] ++ (st cs!"sim_measure").strD
  | .eval, _ => False
  | .train, nm => ∃ e ∈ [cs!".pkl", cs!".params", cs!".params.dm", cs!".params.rows", cs!".params.cols"],
      nm = cs!"TRAINED_COMP_MODEL." ++ (st cs!"model").strD ++ ['.'] ++ lastComp (st cs!"in_file").strD ++ e
  | .apply, nm => ∃ cls ∈ [cs!"WeightedAdditive", cs!"Dilation", cs!"Multiplicative", cs!"FullAdditive", cs!"LexicalFunction"],
      ∃ e ∈ spaceExts, nm = cs!"COMPOSED_SS." ++ cls ++ ['.'] ++ lastComp (st cs!"in_file").strD ++ e

/-- The directory of the output files. -/
def outNode (c : List Str) (st : Settings) : List Str := nodeOf c ((st cs!"out_dir").strD ++ ['/'])

/-- A path of an output file. -/
def OutFile (sc : Tool) (st : Settings) (p : Str) : Prop :=
  ∃ nm, sc.OutName st nm ∧ p = (st cs!"out_dir").strD ++ ['/'] ++ nm

/-- The nodes a run may change: output files (and directories between them and the output directory), the log file. -/
def MayWrite (sc : Tool) (c : List Str) (st : Settings) (n : List Str) : Prop :=
  (∃ p, sc.OutFile st p ∧ outNode c st <+: n ∧ n ≠ outNode c st ∧ n <+: nodeOf c p) ∨
  (∃ f, (st cs!"log_file").asStr = some f ∧ n = nodeOf c f)

/-- The nodes a run may look at: those it may change, the output directory, the configuration file, the input files, the
input directory with everything below it, the log file and its directory. -/
def MayTouch (sc : Tool) (c : List Str) (argv : List Str) (st : Settings) (n : List Str) : Prop :=
  (∃ p, sc.OutFile st p ∧ outNode c st <+: n ∧ n <+: nodeOf c p) ∨
  (∃ f, sc.configFile argv = some f ∧ n = nodeOf c f) ∨
  (∃ f ∈ sc.inputFiles st, n = nodeOf c f) ∨
  (∃ d, sc.inputDir st = some d ∧ (n = nodeOf c d ∨ nodeOf c (withSlash d) <+: n)) ∨
  (∃ f, (st cs!"log_file").asStr = some f ∧
    (n = nodeOf c f ∨ n = (nodeOf c f).dropLast ∨ n = nodeOf c (dirname f)))

/-- How the names of a script's output files begin. -/
def tag : Tool → Str
  | .core => cs!"CORE_SS."
  | .periph => cs!"PER_SS."
  | .sims => cs!"SIMS."
  | .neigh => cs!"NEIGHBOURS."
  | .train => cs!"TRAINED_COMP_MODEL."
  | .apply => cs!"COMPOSED_SS."
  | .eval => cs!"-"

/-- The nodes in the output directory whose name begins the way the script's output files begin, and what is below
them. -/
def Claims (sc : Tool) (c : List Str) (st : Settings) (n : List Str) : Prop :=
  sc ≠ .eval ∧ ∃ name, sc.tag <+: name ∧ outNode c st ++ [name] <+: n

/-- What a run looks at besides its own output files: the output directory, the configuration file, the input files, the
input directory and everything below it. -/
def Reads (sc : Tool) (c : List Str) (argv : List Str) (st : Settings) (n : List Str) : Prop :=
  n = outNode c st ∨ (∃ f, sc.configFile argv = some f ∧ n = nodeOf c f) ∨ (∃ f ∈ sc.inputFiles st, n = nodeOf c f) ∨
  (∃ d, sc.inputDir st = some d ∧ (n = nodeOf c d ∨ nodeOf c (withSlash d) <+: n))

/-- A run with settings `st` whose output directory, and the directory of the log file, exist. -/
structure Ready (L : Lib) (sc : Tool) (fs : Fs) (argv : List Str) (st : Settings) : Prop where
  parsed : sc.cli.parseArgs L.parseCfg fs argv = .ok st
  out : ∀ d, (st cs!"out_dir").asStr = some d → nodeOf fs.cwd (d ++ ['/']) ∈ fs.dirs
  log : ∀ f, (st cs!"log_file").asStr = some f → fs.exists_ (dirname f) = true

/-- The run alone, by the big-step model: what is printed and the disk afterwards. -/
def alone (L : Lib) (fs : Fs) (argv : List Str) : Tool → Main (List (Str × List (Str × ℝ)) × Fs)
  | .core => (mainCore L fs argv).map (fun g => ([], g))
  | .periph => (mainPeriph L fs argv).map (fun g => ([], g))
  | .sims => (mainSims L fs argv).map (fun g => ([], g))
  | .neigh => (mainNeigh L fs argv).map (fun g => ([], g))
  | .train => (mainTrain L fs argv).map (fun g => ([], g))
  | .apply => (mainApply L fs argv).map (fun g => ([], g))
  | .eval => do
    let st ← cliEval.parseArgs L.parseCfg fs argv
    let g ← Main.lift (configLogging fs (st cs!"log_file").asStr)
    let r ← mainEval L fs argv
    return (r, g)

end Tool

/-- Processes started by command lines on a common disk: process `i` runs script `sc i` with arguments `argv i` in the
working directory `cwd i`. -/
def startScripts {ι : Type} (L : Lib) (dirs : List (List Str)) (files : Dict (List Str) Str) (cwd : ι → List Str)
    (sc : ι → Tool) (argv : ι → List Str) : Sys ι (List (Str × List (Str × ℝ))) :=
  ⟨dirs, files, cwd, fun i => (sc i).prog L (argv i)⟩

/-- The run has ended the way it would have ended alone: with the same printed numbers and, at every node it may look at
or change, the same disk; or with the exception (or exit status) with which it would have ended alone. -/
def EndsAsAlone (L : Lib) (fs : Fs) (sc : Tool) (argv : List Str) (st : Settings)
    (p : Prog (List (Str × List (Str × ℝ)))) (final : Fs) : Prop :=
  match sc.alone L fs argv with
  | .ok (r, g) => p = .ret r ∧ ∀ n, sc.MayTouch fs.cwd argv st n → SameAt final g n
  | .error e => p = .raise e

/-- The path of a file that can be written: its directory exists, and it is not a directory itself. -/
structure Saveable (fs : Fs) (p : Str) : Prop where
  dir : fs.resolve (dirname p) ∈ fs.dirs
  named : dirname p ≠ []
  parent : (fs.resolve p).dropLast ∈ fs.dirs
  isFile : fs.resolve p ∉ fs.dirs
  noSlash : p.getLast? ≠ some '/'

/-- The nodes of the output files that a run may produce. -/
def Tool.Outputs (sc : Tool) (c : List Str) (st : Settings) (n : List Str) : Prop := ∃ p, sc.OutFile st p ∧ n = nodeOf c p

/-- The nodes a run looks at that are not output files: the output directory, the configuration file, the input files and
the log file. -/
def Tool.Inputs (sc : Tool) (c : List Str) (argv : List Str) (st : Settings) (n : List Str) : Prop :=
  sc.Reads c argv st n ∨ ∃ f, (st cs!"log_file").asStr = some f ∧ n = nodeOf c f

/-- A run with settings `st` for which everything is prepared: its output files can be written, and the log file, if it
is to write one, exists. -/
structure Tool.Settled (L : Lib) (sc : Tool) (fs : Fs) (argv : List Str) (st : Settings) : Prop where
  parsed : sc.cli.parseArgs L.parseCfg fs argv = .ok st
  out : ∀ p, sc.OutFile st p → Saveable fs p
  log : ∀ f, (st cs!"log_file").asStr = some f → Saveable fs f ∧ ∃ t, fs.read f = .ok t

/-- The process only reads, whatever the disk shows it. -/
inductive Prog.ReadOnly {α : Type} : Prog α → Prop
  | ret (a : α) : ReadOnly (.ret a)
  | raise (e : MainErr) : ReadOnly (.raise e)
  | stat (p : Str) (k : Bool → Prog α) (h : ∀ r, ReadOnly (k r)) : ReadOnly (.stat p k)
  | list (p : Str) (k : Py (List Str) → Prog α) (h : ∀ r, ReadOnly (k r)) : ReadOnly (.list p k)
  | read (p : Str) (k : Py Str → Prog α) (h : ∀ r, ReadOnly (k r)) : ReadOnly (.read p k)

end
end Dissect
