import Verif.Model.Pipeline

/-!
# Scripts that run at the same time

The scripts of `/repo/src/pipelines` as sequences of system calls, and processes that share a disk and take turns in any
order. A program is described by the next system call and by what it does with its result, so that another process may
act between any two of them. `Lemmas/ConcSolo.lean` proves that a process that runs alone does what the big-step model says.

Simplifications: every character reaches the disk by itself (a buffered write is a sequence of such steps that nobody
interrupts); a file is read in one step; text produced before an exception is raised is not written; Python's
computations between two system calls take no time.
-/

namespace Dissect
noncomputable section

/-- Why `os.mkdir` failed: `EEXIST`, or anything else. -/
inductive MkErr
  | eexist
  | other
  deriving DecidableEq

/-- A process: it has returned, it has ended with an exception or exit status, or its next system call is
`stat`, `listdir`, `mkdir`, reading a file, `open(.., 'w')` or the writing of one character at a position of a file it
has opened. -/
inductive Prog (α : Type) : Type
  | ret (a : α)
  | raise (e : MainErr)
  | stat (p : Str) (k : Bool → Prog α)
  | list (p : Str) (k : Py (List Str) → Prog α)
  | mkdir (p : Str) (k : Option MkErr → Prog α)
  | read (p : Str) (k : Py Str → Prog α)
  | openW (p : Str) (k : Py (List Str) → Prog α)
  | put (node : List Str) (off : ℕ) (c : Char) (k : Prog α)

/-- `write(fd, c)` at position `off`: characters there are overwritten, a gap is filled with zeros. -/
def writeAt (s : Str) (off : ℕ) (c : Char) : Str :=
  s.take off ++ List.replicate (off - s.length) (Char.ofNat 0) ++ c :: s.drop (off + 1)

namespace Fs

/-- `os.mkdir(p)`: the error number and the disk afterwards. -/
def mkdirCall (fs : Fs) (p : Str) : Option MkErr × Fs :=
  match fs.mkdir p with
  | .ok g => (none, g)
  | .error _ => (some (if fs.exists_ p then .eexist else .other), fs)

/-- `open(p, 'w')`: the node opened, and the disk with the file empty. -/
def openCall (fs : Fs) (p : Str) : Py (List Str) × Fs :=
  match fs.write p [] with
  | .ok g => (.ok (fs.resolve p), g)
  | .error e => (.error e, fs)

/-- Writing one character. -/
def putCall (fs : Fs) (node : List Str) (off : ℕ) (c : Char) : Fs :=
  { fs with files := fs.files.set node (writeAt ((fs.files.get? node).getD []) off c) }

end Fs

namespace Prog
variable {α β : Type}

/-- One system call. -/
def step : Prog α → Fs → Prog α × Fs
  | ret a, fs => (ret a, fs)
  | raise e, fs => (raise e, fs)
  | stat p k, fs => (k (fs.exists_ p), fs)
  | list p k, fs => (k (fs.listdir id p), fs)
  | mkdir p k, fs => (k (fs.mkdirCall p).1, (fs.mkdirCall p).2)
  | read p k, fs => (k (fs.read p), fs)
  | openW p k, fs => (k (fs.openCall p).1, (fs.openCall p).2)
  | put node off c k, fs => (k, fs.putCall node off c)

/-- One program after another. -/
def bind : Prog α → (α → Prog β) → Prog β
  | ret a, f => f a
  | raise e, _ => raise e
  | stat p k, f => stat p (fun r => (k r).bind f)
  | list p k, f => list p (fun r => (k r).bind f)
  | mkdir p k, f => mkdir p (fun r => (k r).bind f)
  | read p k, f => read p (fun r => (k r).bind f)
  | openW p k, f => openW p (fun r => (k r).bind f)
  | put node off c k, f => put node off c (k.bind f)

instance : Monad Prog where
  pure := ret
  bind := bind

/-- A computation without system calls. -/
def ofMain : Main α → Prog α
  | .ok a => ret a
  | .error e => raise e

/-- A computation without system calls whose exceptions are not caught. -/
def ofPy (x : Py α) : Prog α := ofMain (Main.lift x)

end Prog

/-- Processes that share a disk; each has its own working directory. -/
structure Sys (ι α : Type) where
  dirs : List (List Str)
  files : Dict (List Str) Str
  cwd : ι → List Str
  prog : ι → Prog α

namespace Sys
variable {ι α : Type} [DecidableEq ι]

/-- The disk as process `i` sees it. -/
def view (s : Sys ι α) (i : ι) : Fs := ⟨s.cwd i, s.dirs, s.files⟩

/-- Process `i` makes its next system call. -/
def step (s : Sys ι α) (i : ι) : Sys ι α where
  dirs := ((s.prog i).step (s.view i)).2.dirs
  files := ((s.prog i).step (s.view i)).2.files
  cwd := s.cwd
  prog := Function.update s.prog i ((s.prog i).step (s.view i)).1

/-- The processes take turns as the schedule says. -/
def run (s : Sys ι α) (sched : List ι) : Sys ι α := sched.foldl step s

end Sys

/-! ### `os` and `utils/io_utils.py` -/

/-- `open(p).read()`, the exception as a value. -/
def readE (p : Str) : Prog (Py Str) := .read p .ret

/-- `open(p).read()`. -/
def readP (p : Str) : Prog Str := .read p Prog.ofPy

/-- `os.path.exists(p)`. -/
def existsP (p : Str) : Prog Bool := .stat p .ret

/-- `os.makedirs(name)` (Python 2.7 `os.py`): the error raised, if any; `EEXIST` while the parent is created is ignored. -/
def makedirsP (name : Str) : Prog (Option MkErr) :=
  if h : (Fs.makedirsSplit name).1 ≠ [] ∧ (Fs.makedirsSplit name).2 ≠ [] then
    .stat (Fs.makedirsSplit name).1 (fun b =>
      if b then .mkdir name .ret
      else (makedirsP (Fs.makedirsSplit name).1).bind (fun r =>
        if r = some .other then .ret r
        else if (Fs.makedirsSplit name).2 = ['.'] then .ret none
        else .mkdir name .ret))
  else .mkdir name .ret
termination_by name.length
decreasing_by exact Fs.makedirsSplit_lt name h.2

/-- An `OSError` that is not caught. -/
def raiseOs : Option MkErr → Prog Unit
  | none => .ret ()
  | some _ => .raise (.raised .osError)

/-- `create_parent_directories` (`utils/io_utils.py:46-50`). -/
def createParentP (fileName : Str) : Prog Unit :=
  .stat (dirname fileName) (fun b => if b then .ret () else (makedirsP (dirname fileName)).bind raiseOs)

/-- `f.write(c)` from position `off` on. -/
def putAll (node : List Str) : ℕ → Str → Prog Unit
  | _, [] => .ret ()
  | off, c :: cs => .put node off c (putAll node (off + 1) cs)

/-- `with open(p, 'w') as f: f.write(...)`. -/
def writeP (p : Str) (txt : Py Str) : Prog Unit :=
  .openW p (fun r => (Prog.ofPy r).bind (fun node => (Prog.ofPy txt).bind (putAll node 0)))

/-- `save` (`utils/io_utils.py:20-28`). -/
def saveP (pickled fileName : Str) : Prog Unit := (createParentP fileName).bind (fun _ => writeP fileName (.ok pickled))

/-- `config_logging` (`utils/log_utils.py:11-15`). Simplification: the file is tested and then created (`open(.., 'a')`
does both in one step); the lines of the log are left out. -/
def configLoggingP (file : Option Str) : Prog Unit :=
  match file with
  | none => .ret ()
  | some f => (createParentP f).bind (fun _ => .read f (fun r =>
    match r with
    | .ok _ => .ret ()
    | .error _ => writeP f (.ok [])))

/-! ### `Space.build` (`space.py:475-542`) and `Space.export` (`space.py:544-594`) -/

/-- Reading the optional row file (`space.py:516-517`). -/
def buildRowsP (rows : Option Str) : Prog (Option (List Str × Dict Str ℤ)) :=
  match rows with
  | none => .ret none
  | some f => (readP f).bind (fun c => (Prog.ofPy (extractFirst c)).bind (fun x => .ret (some x)))

/-- Reading the optional column file (`space.py:519-522`). -/
def buildColsP (fmt : Str) (cols : Option Str) : Prog (Option (List Str × Dict Str ℤ)) :=
  match cols with
  | some f => (readP f).bind (fun c => (Prog.ofPy (extractFirst c)).bind (fun x => .ret (some x)))
  | none => if fmt = fmtSm then .raise (.raised .valueError) else .ret none

/-- Rows taken from the data file when no row file is given (`space.py:525-526, 530-531`). -/
def rowsOrDataP (data : Str) (r : Option (List Str × Dict Str ℤ)) : Prog (List Str × Dict Str ℤ) :=
  match r with
  | some x => .ret x
  | none => (readP data).bind (fun c => Prog.ofPy (extractFirst c))

/-- Reading the matrix (`space.py:527, 532`). -/
def buildMatP (io : NumIO) (fmt data : Str) (row2id : Dict Str ℤ) (col2id : Dict Str ℤ) : Prog (TMat ℝ) :=
  (readP data).bind (fun c => Prog.ofPy (if fmt = fmtSm then readSparse io c row2id col2id else readDense io c row2id))

/-- `Space.build` after the argument checks (`space.py:516-542`). -/
def buildWithP (io : NumIO) (data fmt : Str) (rows cols : Option Str) : Prog (Space Str) :=
  (buildRowsP rows).bind fun r =>
  (buildColsP fmt cols).bind fun c =>
  (rowsOrDataP data r).bind fun ir =>
  (buildMatP io fmt data ir.2 (c.getD ([], Dict.empty)).2).bind fun m =>
  (Prog.ofPy (checkCols (c.getD ([], Dict.empty)).1 m)).bind fun _ =>
  Prog.ofPy (Space.new m ir.1 (c.getD ([], Dict.empty)).1 (some ir.2) (some (c.getD ([], Dict.empty)).2) [] none)

/-- The matrix part of `export` (`space.py:569-580`). -/
def exportMatrixP (io : NumIO) (s : Space Str) (store : Csr ℝ) (pre : Str) (format : Option Str) : Prog Unit :=
  match format with
  | none => .ret ()
  | some f =>
    if f = fmtDm then writeP (withExt pre fmtDm) (printDm io s.mat s.id2row 0)
    else if f = fmtSm then
      if s.id2col = [] then .raise (.raised .valueError)
      else writeP (withExt pre fmtSm) (printSm io s.mat store s.id2row s.id2col)
    else .raise (.raised .valueError)

/-- The column part of `_export_row_column` (`space.py:591-592`). -/
def exportColsP (s : Space Str) (pre : Str) : Prog Unit :=
  if s.col2id.len ≠ 0 then writeP (withExt pre ['c', 'o', 'l', 's']) (.ok (printList s.id2col)) else .ret ()

/-- `_export_row_column` (`space.py:587-594`). -/
def exportRowColumnP (s : Space Str) (pre : Str) : Prog Unit :=
  (exportColsP s pre).bind (fun _ => writeP (withExt pre ['r', 'o', 'w', 's']) (.ok (printList s.id2row)))

/-- `Space.export` (`space.py:544-585`). -/
def exportP (io : NumIO) (s : Space Str) (store : Csr ℝ) (pre : Str) (format : Option Str) : Prog Unit :=
  (createParentP pre).bind fun _ =>
  (exportMatrixP io s store pre format).bind fun _ =>
  exportRowColumnP s pre

/-! ### The scripts -/

/-- What `pickle.load` and the type test make of the text of a file (`io_utils.py:31-38`). -/
def spaceOf (L : Lib) (r : Py Str) : Py (Space Str) :=
  match r with
  | .error e => .error e
  | .ok txt => match L.undump txt with
    | none => .error .valueError
    | some (.space s) => .ok s
    | some _ => .error .typeError

/-- `io_utils.load(f, Space)`. -/
def loadSpaceP (L : Lib) (f : Str) : Prog (Space Str) := .read f (fun r => Prog.ofPy (spaceOf L r))

/-- `io_utils.load(f, CompositionModel)` on the text of the file (`apply_composition.py:85`). -/
def modelOf (L : Lib) (r : Py Str) : Py PyObj :=
  match r with
  | .error e => .error e
  | .ok txt => match L.undump txt with
    | none => .error .valueError
    | some (.composer c) => .ok (.composer c)
    | some (.lexfun m) => .ok (.lexfun m)
    | some _ => .error .typeError

/-- The second space, when two files are given. -/
def loadSecondP (L : Lib) (files : List Str) : Prog (Option (Space Str)) :=
  match files with
  | [_, f] => (loadSpaceP L f).bind (fun s => .ret (some s))
  | _ => .ret none

/-- `for x in l: ...`. -/
def forP {α : Type} (f : ℕ → α → Prog Unit) : ℕ → List α → Prog Unit
  | _, [] => .ret ()
  | i, x :: xs => (f i x).bind (fun _ => forP f (i + 1) xs)

/-- The optional export of a space (`build_core_space.py:173-174`). -/
def exportOptP (L : Lib) (s : Space Str) (pre : Str) (outFormat : Option Str) : Prog Unit :=
  match outFormat with
  | none => .ret ()
  | some f => exportP L.io s (L.csr s.mat) pre (some f)

/-- Save a space and export it (`build_core_space.py:172-174`, `build_peripheral_space.py:101-104`,
`apply_composition.py:103-107`). -/
def printP (L : Lib) (s : Space Str) (file : Str) (outFormat : Option Str) : Prog Unit :=
  (saveP (L.dump (.space s)) (file ++ cs!".pkl")).bind (fun _ => exportOptP L s file outFormat)

/-- An optional file: its name if it exists (`build_core_space.py:193-199`). -/
def fileIfExistsP (f : Str) : Prog (Option Str) := .stat f (fun b => .ret (if b then some f else none))

/-- Reading the input space (`build_core_space.py:181-203`, `build_peripheral_space.py:58-82`). -/
def readInputP (L : Lib) (pre fmt : Str) (gz : Bool) : Prog (Space Str) :=
  if fmt ≠ fmtSm ∧ fmt ≠ fmtDm ∧ fmt ≠ cs!"pkl" then .raise (.raised .valueError)
  else if fmt = cs!"pkl" then loadSpaceP L (pre ++ ['.'] ++ fmt)
  else
    (fileIfExistsP (pre ++ cs!".rows")).bind fun rows =>
    (fileIfExistsP (pre ++ cs!".cols")).bind fun cols =>
    if cols = none ∧ fmt = fmtSm then .raise (.raised .valueError)
    else buildWithP L.io (if gz then pre ++ ['.'] ++ fmt ++ cs!".gz" else pre ++ ['.'] ++ fmt) fmt rows cols

/-- `build_spaces` (`build_core_space.py:177-218`). -/
def buildSpacesP (L : Lib) (pre fmt outDir : Str) (outFormat : Option Str) (ws ss rs ns : List (Option Str)) (gz : Bool) :
    Prog Unit :=
  (readInputP L pre fmt gz).bind fun space =>
  forP (fun i w => (Prog.ofPy (applyWeighting L.env space w)).bind fun wSpace =>
    forP (fun j s => (Prog.ofPy (applySelection L.env wSpace s)).bind fun sSpace =>
      forP (fun k r => (Prog.ofPy (applyReduction L.env (L.chance i j k) sSpace r)).bind fun rSpace =>
        forP (fun _ n => (Prog.ofPy (applyNormalization L.env rSpace n)).bind fun nSpace =>
          printP L nSpace (spaceFile outDir [some (coreDescr pre), w, s, r, n]) outFormat) 0 ns) 0 rs) 0 ss) 0 ws

/-- `transform_raw_per_space` (`build_peripheral_space.py:91-104`). -/
def transformRawP (L : Lib) (raw : Space Str) (pre outDir : Str) (outFormat : Option Str) (coreFile : Str) : Prog Unit :=
  (loadSpaceP L coreFile).bind fun core =>
  (Prog.ofPy (Periph.new core raw.mat raw.id2row (some raw.row2id))).bind fun p =>
  printP L p (outDir ++ ['/'] ++ (cs!"PER_SS." ++ lastComp pre) ++ ['.'] ++ stem coreFile) outFormat

/-- `build_space` (`build_peripheral_space.py:85-88`). -/
def buildPeriphP (L : Lib) (pre fmt outDir : Str) (outFormat : Option Str) (coreFile : Str) (gz : Bool) : Prog Unit :=
  (readInputP L pre fmt gz).bind fun raw => transformRawP L raw pre outDir outFormat coreFile

/-- `os.listdir(p)`. -/
def listdirP (order : List Str → List Str) (p : Str) : Prog (List Str) :=
  .list p (fun r => Prog.ofPy (r.map order))

/-- `build_space_batch` (`build_peripheral_space.py:107-122`). -/
def buildPeriphBatchP (L : Lib) (pre fmt outDir : Str) (outFormat : Option Str) (inDir filter : Str) (gz : Bool) :
    Prog Unit :=
  (readInputP L pre fmt gz).bind fun raw =>
  .stat inDir fun b =>
    if b then
      (listdirP L.dirOrder (withSlash inDir)).bind fun names =>
      forP (fun _ name => transformRawP L raw pre outDir outFormat (withSlash inDir ++ name)) 0
        (names.filter (fun f => containsStr f filter && isPkl f))
    else .raise (.raised .valueError)

/-- One measure (`compute_similarities.py:110-128`): both files are opened, then the lines are read and written. -/
def simMeasureP (L : Lib) (inFile : Str) (c0 c1 : ℤ) (outDir descr : Str) (s : Space Str) (space2 : Option (Space Str))
    (measure : Str) : Prog Unit :=
  match simOf measure with
  | none => .ret ()
  | some sim =>
    (createParentP (outDir ++ ['/'] ++ descr ++ ['.'] ++ measure)).bind fun _ =>
    (readP inFile).bind fun _ =>
    .openW (outDir ++ ['/'] ++ descr ++ ['.'] ++ measure) fun r =>
    (Prog.ofPy r).bind fun node =>
    (readP inFile).bind fun content =>
    (Prog.ofPy (simText L c0 c1 s space2 sim (strippedLines content))).bind fun txt =>
    putAll node 0 txt

/-- `compute_sim` (`compute_similarities.py:83-128`). -/
def computeSimP (L : Lib) (inFile : Str) (columns : List Str) (outDir : Str) (measures files : List Str) : Prog Unit :=
  (Prog.ofPy (twoColumns columns)).bind fun c =>
  match files with
  | [] => .raise (.raised .indexError)
  | f :: _ => .read f fun r =>
    match spaceOf L r with
    | .error .typeError => .ret ()
    | .error e => .raise (.raised e)
    | .ok s =>
      (loadSecondP L files).bind fun space2 =>
      forP (fun _ m => simMeasureP L inFile c.1 c.2 outDir
        (joinStr ['.'] [cs!"SIMS", lastComp inFile, spacesDescr files]) s space2 m) 0 measures

/-- `compute_sim_batch` (`compute_similarities.py:67-80`). -/
def computeSimBatchP (L : Lib) (inFile : Str) (columns : List Str) (outDir : Str) (measures : List Str) (inDir : Str) :
    Prog Unit :=
  .stat inDir fun b =>
    if b then
      (listdirP L.dirOrder (withSlash inDir)).bind fun names =>
      forP (fun _ name => computeSimP L inFile columns outDir measures [withSlash inDir ++ name]) 0 (names.filter isPkl)
    else .raise (.raised .valueError)

/-- `compute_neighbours` (`compute_neighbours.py:61-91`). -/
def computeNeighboursP (L : Lib) (inFile : Str) (n : ℤ) (outDir measure : Str) (files : List Str) : Prog Unit :=
  match simOf measure with
  | none => .raise (.raised .valueError)
  | some sim => match files with
    | [] => .raise (.raised .indexError)
    | f :: _ =>
      (loadSpaceP L f).bind fun s =>
      (loadSecondP L files).bind fun space2 =>
      (createParentP (outDir ++ ['/'] ++ joinStr ['.'] [cs!"NEIGHBOURS", lastComp inFile, spacesDescr files] ++
        ['.'] ++ measure)).bind fun _ =>
      (readP inFile).bind fun content =>
      (Prog.ofPy (readList content none)).bind fun ws =>
      writeP (outDir ++ ['/'] ++ joinStr ['.'] [cs!"NEIGHBOURS", lastComp inFile, spacesDescr files] ++ ['.'] ++ measure)
        (neighboursText L s n sim space2 ws)

/-- `evaluate_sim` (`evaluate_similarities.py:59-78`). -/
def evaluateSimP (L : Lib) (inFile : Str) (columns measures : List Str) : Prog (List (Str × ℝ)) :=
  (Prog.ofPy (twoColumns columns)).bind fun c =>
  (readP inFile).bind fun content =>
  (Prog.ofPy (goldPrediction L.io c.1 c.2 (strippedLines content))).bind fun gp =>
  Prog.ofPy (scoreLoop L.stats gp.1 gp.2 measures)

/-- The loop of `evaluate_sim_batch` (`evaluate_similarities.py:89-92`). -/
def evalLoopP (L : Lib) (dir : Str) (columns measures : List Str) : List Str → Prog (List (Str × List (Str × ℝ)))
  | [] => .ret []
  | f :: names =>
    (evaluateSimP L (dir ++ f) columns measures).bind fun r =>
    (evalLoopP L dir columns measures names).bind fun rest =>
    .ret ((f, r) :: rest)

/-- `evaluate_sim_batch` (`evaluate_similarities.py:81-92`). -/
def evaluateSimBatchP (L : Lib) (inDir : Str) (columns measures : List Str) (filter : Str) :
    Prog (List (Str × List (Str × ℝ))) :=
  .stat inDir fun b =>
    if b then
      (listdirP L.dirOrder (withSlash inDir)).bind fun names =>
      evalLoopP L (withSlash inDir) columns measures (names.filter (fun f => containsStr f filter))
    else .raise (.raised .valueError)

/-- `export` of a composition model (`composition_model.py:216-227` and the `_export` methods). -/
def exportModelP (L : Lib) (m : PyObj) (file : Str) : Prog Unit :=
  match m with
  | .composer ⟨.multiplicative, _⟩ => .raise (.raised .illegalOperationError)
  | .composer ⟨.weighted a b, _⟩ => (createParentP file).bind fun _ =>
      writeP file (.ok (paramText L.io cs!"alpha" a ++ ['\n'] ++ paramText L.io cs!"beta" b))
  | .composer ⟨.dilation l, _⟩ => (createParentP file).bind fun _ => writeP file (.ok (paramText L.io cs!"lambda" l))
  | .composer ⟨.fullAdditive (some a) (some b) i _, _⟩ => (createParentP file).bind fun _ =>
      writeP file (.ok (fullAdditiveText L a b i))
  | .composer ⟨.fullAdditive _ _ _ _, _⟩ => (createParentP file).bind fun _ => .raise (.raised .illegalStateError)
  | .lexfun m => (createParentP file).bind fun _ =>
      match m.functions with
      | none => .raise (.raised .illegalStateError)
      | some s => exportP L.io s (L.csr s.mat) file (some fmtDm)
  | _ => .raise (.raised .attributeError)

/-- `train_model` (`train_composition.py:74-129`). Simplification: the training data are read before the model name is
tested. -/
def trainModelP (L : Lib) (inFile outDir model : Str) (argFiles : List Str) (phraseFile : Str)
    (regression : Option Str) (cv intercept : Bool) (param : ParamVal) (range : Option (List ℝ))
    (exportParams : Bool) : Prog Unit :=
  match argFiles with
  | [] => .raise (.raised .indexError)
  | f :: _ =>
    (loadSpaceP L f).bind fun arg =>
    (loadSecondP L argFiles).bind fun arg2 =>
    (loadSpaceP L phraseFile).bind fun phrase =>
    (readE inFile).bind fun content =>
    (Prog.ofPy (trainObj L model arg arg2 phrase regression cv intercept param range content)).bind fun obj =>
    (saveP (L.dump obj) (outDir ++ cs!"/TRAINED_COMP_MODEL" ++ ['.'] ++ model ++ ['.'] ++ lastComp inFile ++
      cs!".pkl")).bind fun _ =>
    if exportParams then exportModelP L obj (outDir ++ cs!"/TRAINED_COMP_MODEL" ++ ['.'] ++ model ++ ['.'] ++
      lastComp inFile ++ cs!".params")
    else .ret ()

/-- The model object (`apply_composition.py:82-85`). -/
def modelObjP (L : Lib) (model trained : Option Str) (alpha beta lam : Option ℝ) : Prog PyObj :=
  match model, trained with
  | some m, _ => Prog.ofPy (createModel m alpha beta lam)
  | none, some t => .read t (fun r => Prog.ofPy (modelOf L r))
  | none, none => .raise (.raised .typeError)

/-- `apply_model` (`apply_composition.py:76-107`). -/
def applyModelP (L : Lib) (inFile outDir : Str) (model trained : Option Str) (argFiles : List Str)
    (alpha beta lam : Option ℝ) (outFormat : Option Str) : Prog Unit :=
  (modelObjP L model trained alpha beta lam).bind fun m =>
  match argFiles with
  | [] => .raise (.raised .indexError)
  | f :: _ =>
    (loadSpaceP L f).bind fun arg =>
    (loadSecondP L argFiles).bind fun arg2 =>
    (readP inFile).bind fun content =>
    (Prog.ofPy (readTriples content)).bind fun data =>
    (Prog.ofPy (composeObj m data arg arg2)).bind fun s =>
    printP L s (outDir ++ cs!"/COMPOSED_SS" ++ ['.'] ++ className m ++ ['.'] ++ lastComp inFile) outFormat

/-! ### The `main` functions -/

/-- The variables before the option loop (`build_core_space.py:246-273` and the same place of the other scripts). -/
def initialP (c : Cli) (parse : Str → Py Config) (rest : List Str) : Prog Settings :=
  match rest with
  | [f] => .read f fun r =>
    match r with
    | .ok txt => match parse txt with
      | .ok cfg => .ret (c.fromConfig cfg)
      | .error e => .raise (.raised e)
    | .error e => if c.mustOpen then .raise (.raised e) else .ret c.defaults
  | _ => .ret c.defaults

/-- `main` up to the end of the option loop. -/
def parseArgsP (c : Cli) (parse : Str → Py Config) (argv : List Str) : Prog Settings :=
  match getopt c.short c.longs argv with
  | none => .raise (.exit 0)
  | some (opts, rest) => (initialP c parse rest).bind fun st => Prog.ofMain (c.optLoop opts st)

/-- `main` of `build_core_space.py` (lines 221-313). -/
def mainCoreP (L : Lib) (argv : List Str) : Prog Unit :=
  (parseArgsP cliCore L.parseCfg argv).bind fun st =>
  (configLoggingP (st cs!"log_file").asStr).bind fun _ =>
  (Prog.ofMain (require (st cs!"in_file_prefix").asStr)).bind fun pre =>
  (Prog.ofMain (require (st cs!"out_dir").asStr)).bind fun outDir =>
  (Prog.ofMain (require (st cs!"in_format").asStr)).bind fun fmt =>
  (Prog.ofPy (L.evalBool (st cs!"gz").strD)).bind fun gz =>
  (Prog.ofMain (requireBool gz)).bind fun gz =>
  buildSpacesP L pre fmt outDir (st cs!"out_format").asStr (st cs!"weightings").asTokens
    (st cs!"selections").asTokens (st cs!"reductions").asTokens (st cs!"normalizations").asTokens gz

/-- `main` of `build_peripheral_space.py` (lines 125-200). -/
def mainPeriphP (L : Lib) (argv : List Str) : Prog Unit :=
  (parseArgsP cliPeriph L.parseCfg argv).bind fun st =>
  (configLoggingP (st cs!"log_file").asStr).bind fun _ =>
  (Prog.ofMain (require (st cs!"in_file_prefix").asStr)).bind fun pre =>
  (Prog.ofMain (require (st cs!"out_dir").asStr)).bind fun outDir =>
  (Prog.ofMain (require (st cs!"in_format").asStr)).bind fun fmt =>
  (Prog.ofPy (L.evalBool (st cs!"gz").strD)).bind fun gz =>
  (Prog.ofMain (requireBool gz)).bind fun gz =>
  match (st cs!"core_in_dir").asStr with
  | some d => buildPeriphBatchP L pre fmt outDir (st cs!"out_format").asStr d (st cs!"core_filter").strD gz
  | none => (Prog.ofMain (require (st cs!"core_space_file").asStr)).bind fun core =>
    buildPeriphP L pre fmt outDir (st cs!"out_format").asStr core gz

/-- `main` of `compute_similarities.py` (lines 131-201). -/
def mainSimsP (L : Lib) (argv : List Str) : Prog Unit :=
  (parseArgsP cliSims L.parseCfg argv).bind fun st =>
  (configLoggingP (st cs!"log_file").asStr).bind fun _ =>
  (Prog.ofMain (require (st cs!"in_file").asStr)).bind fun inFile =>
  (Prog.ofMain (require (st cs!"out_dir").asStr)).bind fun outDir =>
  (Prog.ofMain (require (st cs!"sim_measures").asList)).bind fun measures =>
  (Prog.ofMain (require (st cs!"columns").asList)).bind fun columns =>
  match (st cs!"in_dir").asStr with
  | some d => computeSimBatchP L inFile columns outDir measures d
  | none => (Prog.ofMain (require (st cs!"spaces").asList)).bind fun spaces =>
    computeSimP L inFile columns outDir measures spaces

/-- `main` of `compute_neighbours.py` (lines 93-156). -/
def mainNeighP (L : Lib) (argv : List Str) : Prog Unit :=
  (parseArgsP cliNeigh L.parseCfg argv).bind fun st =>
  (configLoggingP (st cs!"log_file").asStr).bind fun _ =>
  (Prog.ofPy (pyInt (st cs!"no_neighbours").strD)).bind fun n =>
  (Prog.ofMain (require (st cs!"in_file").asStr)).bind fun inFile =>
  (Prog.ofMain (require (st cs!"out_dir").asStr)).bind fun outDir =>
  (Prog.ofMain (require (st cs!"sim_measure").asStr)).bind fun measure =>
  (Prog.ofMain (require (st cs!"spaces").asList)).bind fun spaces =>
  computeNeighboursP L inFile n outDir measure spaces

/-- `main` of `evaluate_similarities.py` (lines 95-161): what is printed. -/
def mainEvalP (L : Lib) (argv : List Str) : Prog (List (Str × List (Str × ℝ))) :=
  (parseArgsP cliEval L.parseCfg argv).bind fun st =>
  (configLoggingP (st cs!"log_file").asStr).bind fun _ =>
  (Prog.ofMain (require (st cs!"corr_measures").asList)).bind fun measures =>
  (Prog.ofMain (require (st cs!"columns").asList)).bind fun columns =>
  if columns.length ≠ 2 then .raise (.raised .valueError)
  else match (st cs!"in_dir").asStr with
    | some d => evaluateSimBatchP L d columns measures (st cs!"filter_").strD
    | none => (Prog.ofMain (require (st cs!"in_file").asStr)).bind fun inFile =>
      (evaluateSimP L inFile columns measures).bind fun r => .ret [([], r)]

/-- `main` of `train_composition.py` (lines 132-236). -/
def mainTrainP (L : Lib) (argv : List Str) : Prog Unit :=
  (parseArgsP cliTrain L.parseCfg argv).bind fun st =>
  (configLoggingP (st cs!"log_file").asStr).bind fun _ =>
  (Prog.ofMain (require (st cs!"in_file").asStr)).bind fun inFile =>
  (Prog.ofMain (require (st cs!"out_dir").asStr)).bind fun outDir =>
  (Prog.ofMain (require (st cs!"model").asStr)).bind fun model =>
  (Prog.ofMain (require (st cs!"arg_space").asList)).bind fun argFiles =>
  (Prog.ofMain (require (st cs!"phrase_space").asStr)).bind fun phraseFile =>
  (Prog.ofPy (L.evalBool (st cs!"crossvalidation").strD)).bind fun cv =>
  (Prog.ofPy (L.evalBool (st cs!"intercept").strD)).bind fun ic =>
  (Prog.ofMain (requireBool ic)).bind fun ic =>
  (Prog.ofMain (requireBool cv)).bind fun cv =>
  (Prog.ofPy (L.evalBool (st cs!"export_params").strD)).bind fun ex =>
  (Prog.ofMain (requireBool ex)).bind fun ex =>
  (Prog.ofPy (paramsOf L.io (st cs!"param").asStr (st cs!"param_range").asList)).bind fun pr =>
  (Prog.ofMain (checkLambda cv (st cs!"regression").asStr pr.1)).bind fun _ =>
  trainModelP L inFile outDir model argFiles phraseFile (st cs!"regression").asStr cv ic pr.1 pr.2 ex

/-- `main` of `apply_composition.py` (lines 110-195). -/
def mainApplyP (L : Lib) (argv : List Str) : Prog Unit :=
  (parseArgsP cliApply L.parseCfg argv).bind fun st =>
  (configLoggingP (st cs!"log_file").asStr).bind fun _ =>
  (Prog.ofMain (require (st cs!"in_file").asStr)).bind fun inFile =>
  (Prog.ofMain (require (st cs!"out_dir").asStr)).bind fun outDir =>
  (Prog.ofMain (requireXor (st cs!"model").asStr (st cs!"trained_model").asStr)).bind fun _ =>
  (Prog.ofMain (require (st cs!"arg_space").asList)).bind fun argFiles =>
  (Prog.ofPy (floatOpt L.io (st cs!"alpha").asStr)).bind fun alpha =>
  (Prog.ofPy (floatOpt L.io (st cs!"beta").asStr)).bind fun beta =>
  (Prog.ofPy (floatOpt L.io (st cs!"lambda_").asStr)).bind fun lam =>
  applyModelP L inFile outDir (st cs!"model").asStr (st cs!"trained_model").asStr argFiles alpha beta lam
    (st cs!"out_format").asStr

/-- The seven scripts. -/
inductive Tool
  | core | periph | sims | neigh | eval | train | apply
  deriving DecidableEq

/-- The process started by a command line; what it prints is its result (only `evaluate_similarities.py` prints
numbers). -/
def Tool.prog (L : Lib) (argv : List Str) : Tool → Prog (List (Str × List (Str × ℝ)))
  | .core => (mainCoreP L argv).bind fun _ => .ret []
  | .periph => (mainPeriphP L argv).bind fun _ => .ret []
  | .sims => (mainSimsP L argv).bind fun _ => .ret []
  | .neigh => (mainNeighP L argv).bind fun _ => .ret []
  | .eval => mainEvalP L argv
  | .train => (mainTrainP L argv).bind fun _ => .ret []
  | .apply => (mainApplyP L argv).bind fun _ => .ret []

end
end Dissect
