import Verif.Model.Pipeline

/-!
# The disk while a script runs

The other model files describe what the disk looks like when a call has returned. Here the same functions are described
together with every state the disk can be in while they run, so that an exception, `sys.exit` or the death of the
process at any moment can be discussed. The outcome of every function is the one of the big-step model
(`Lemmas/Crash.lean` proves the equality).

Simplifications: creating a directory and creating or truncating a file are single steps; text reaches the disk as a
prefix of what is written (buffering decides which one); when producing the text raises, any partial text is possible;
writes of different files reach the disk in program order.
-/

namespace Dissect
noncomputable section

/-- A running piece of code: the states the disk may be in between its start and its end, and its outcome. -/
structure Run (ε : Type) where
  seen : Fs → Prop
  out : Except ε Fs

namespace Run
variable {ε : Type}

/-- Nothing happens. -/
def done (fs : Fs) : Run ε := ⟨fun g => g = fs, .ok fs⟩

/-- An exception. -/
def fail (fs : Fs) (e : ε) : Run ε := ⟨fun g => g = fs, .error e⟩

/-- One piece of code after another. -/
def andThen (r : Run ε) (k : Fs → Run ε) : Run ε :=
  ⟨fun g => r.seen g ∨ ∃ fs', r.out = .ok fs' ∧ (k fs').seen g, r.out.bind (fun fs' => (k fs').out)⟩

/-- A computation without effect on the disk, then the rest. -/
def compute {α : Type} (fs : Fs) (x : Except ε α) (k : α → Run ε) : Run ε :=
  ⟨fun g => g = fs ∨ ∃ a, x = .ok a ∧ (k a).seen g, x.bind (fun a => (k a).out)⟩

/-- An exception that a script does not catch. -/
def lift (r : Run PyErr) : Run MainErr := ⟨r.seen, Main.lift r.out⟩

end Run

/-! ### `os` and `utils/io_utils.py` -/

/-- `os.mkdir`. -/
def mkdirR (fs : Fs) (p : Str) : Run PyErr := ⟨fun g => g = fs ∨ fs.mkdir p = .ok g, fs.mkdir p⟩

/-- `os.makedirs` (Python 2.7 `os.py`), one directory after the other. -/
def makedirsR (fs : Fs) (name : Str) : Run PyErr :=
  if h : (Fs.makedirsSplit name).1 ≠ [] ∧ (Fs.makedirsSplit name).2 ≠ [] ∧
      fs.exists_ (Fs.makedirsSplit name).1 = false then
    (makedirsR fs (Fs.makedirsSplit name).1).andThen (fun fs' =>
      if (Fs.makedirsSplit name).2 = ['.'] then .done fs' else mkdirR fs' name)
  else mkdirR fs name
termination_by name.length
decreasing_by exact Fs.makedirsSplit_lt name h.2.1

/-- `create_parent_directories` (`utils/io_utils.py:46-50`). -/
def createParentR (fs : Fs) (fileName : Str) : Run PyErr :=
  if fs.exists_ (dirname fileName) then .done fs else makedirsR fs (dirname fileName)

/-- `with open(p, 'w') as f: f.write(...)`: the file is truncated, then it grows; `txt` is the complete text, or the
exception raised while it is produced. -/
def writeR (fs : Fs) (p : Str) (txt : Py Str) : Run PyErr :=
  ⟨fun g => g = fs ∨ ∃ t, (∀ c, txt = .ok c → t <+: c) ∧ fs.write p t = .ok g, fs.writeText p txt⟩

/-- `save` (`utils/io_utils.py:20-28`). -/
def saveR (fs : Fs) (pickled fileName : Str) : Run PyErr :=
  (createParentR fs fileName).andThen (fun fs1 => writeR fs1 fileName (.ok pickled))

/-- `config_logging` (`utils/log_utils.py:11-15`). -/
def configLoggingR (fs : Fs) (file : Option Str) : Run PyErr :=
  match file with
  | none => .done fs
  | some f => (createParentR fs f).andThen (fun fs1 =>
    match fs1.read f with
    | .ok _ => .done fs1
    | .error _ => writeR fs1 f (.ok []))

/-! ### `Space.export` (`space.py:544-594`) -/

/-- The matrix part (`space.py:569-580`). -/
def exportMatrixR (io : NumIO) (fs : Fs) (s : Space Str) (store : Csr ℝ) (pre : Str) (format : Option Str) : Run PyErr :=
  match format with
  | none => .done fs
  | some f =>
    if f = fmtDm then writeR fs (withExt pre fmtDm) (printDm io s.mat s.id2row 0)
    else if f = fmtSm then
      if s.id2col = [] then .fail fs .valueError
      else writeR fs (withExt pre fmtSm) (printSm io s.mat store s.id2row s.id2col)
    else .fail fs .valueError

/-- `_export_row_column` (`space.py:587-594`). -/
def exportRowColumnR (fs : Fs) (s : Space Str) (pre : Str) : Run PyErr :=
  (if s.col2id.len ≠ 0 then writeR fs (withExt pre ['c', 'o', 'l', 's']) (.ok (printList s.id2col)) else .done fs).andThen
    (fun fs1 => writeR fs1 (withExt pre ['r', 'o', 'w', 's']) (.ok (printList s.id2row)))

/-- `Space.export` (`space.py:544-585`). -/
def exportR (io : NumIO) (fs : Fs) (s : Space Str) (store : Csr ℝ) (pre : Str) (format : Option Str) : Run PyErr :=
  (createParentR fs pre).andThen (fun fs1 =>
    (exportMatrixR io fs1 s store pre format).andThen (fun fs2 => exportRowColumnR fs2 s pre))

/-! ### The scripts -/

/-- The optional export of a space (`build_core_space.py:173-174`). -/
def exportOptR (L : Lib) (fs : Fs) (s : Space Str) (pre : Str) (outFormat : Option Str) : Run PyErr :=
  match outFormat with
  | none => .done fs
  | some f => exportR L.io fs s (L.csr s.mat) pre (some f)

/-- Save a space and export it (`build_core_space.py:172-174`, `build_peripheral_space.py:101-104`,
`apply_composition.py:103-107`). -/
def printR (L : Lib) (fs : Fs) (s : Space Str) (file : Str) (outFormat : Option Str) : Run PyErr :=
  (saveR fs (L.dump (.space s)) (file ++ cs!".pkl")).andThen (fun fs1 => exportOptR L fs1 s file outFormat)

/-- `for x in l: ...`. -/
def forR {α : Type} (f : ℕ → α → Fs → Run PyErr) : ℕ → List α → Fs → Run PyErr
  | _, [], fs => .done fs
  | i, x :: xs, fs => (f i x fs).andThen (fun fs' => forR f (i + 1) xs fs')

/-- The innermost loop (`build_core_space.py:214-218`). -/
def normLoopR (L : Lib) (outDir : Str) (outFormat : Option Str) (ns : List (Option Str)) (descr : Str)
    (w s r : Option Str) (rSpace : Space Str) (fs : Fs) : Run PyErr :=
  forR (fun _ n fs => .compute fs (applyNormalization L.env rSpace n) (fun nSpace =>
    printR L fs nSpace (spaceFile outDir [some descr, w, s, r, n]) outFormat)) 0 ns fs

/-- The loop over the reductions (`build_core_space.py:211-218`). -/
def redLoopR (L : Lib) (outDir : Str) (outFormat : Option Str) (rs ns : List (Option Str)) (descr : Str)
    (w s : Option Str) (i j : ℕ) (sSpace : Space Str) (fs : Fs) : Run PyErr :=
  forR (fun k r fs => .compute fs (applyReduction L.env (L.chance i j k) sSpace r) (fun rSpace =>
    normLoopR L outDir outFormat ns descr w s r rSpace fs)) 0 rs fs

/-- The loop over the selections (`build_core_space.py:208-218`). -/
def selLoopR (L : Lib) (outDir : Str) (outFormat : Option Str) (ss rs ns : List (Option Str)) (descr : Str)
    (w : Option Str) (i : ℕ) (wSpace : Space Str) (fs : Fs) : Run PyErr :=
  forR (fun j s fs => .compute fs (applySelection L.env wSpace s) (fun sSpace =>
    redLoopR L outDir outFormat rs ns descr w s i j sSpace fs)) 0 ss fs

/-- `build_spaces` (`build_core_space.py:177-218`). -/
def buildSpacesR (L : Lib) (fs : Fs) (pre fmt outDir : Str) (outFormat : Option Str)
    (ws ss rs ns : List (Option Str)) (gz : Bool) : Run PyErr :=
  .compute fs (readInput L fs pre fmt gz) (fun space =>
    forR (fun i w fs => .compute fs (applyWeighting L.env space w) (fun wSpace =>
      selLoopR L outDir outFormat ss rs ns (coreDescr pre) w i wSpace fs)) 0 ws fs)

/-- `transform_raw_per_space` (`build_peripheral_space.py:91-104`). -/
def transformRawR (L : Lib) (raw : Space Str) (pre outDir : Str) (outFormat : Option Str) (coreFile : Str) (fs : Fs) :
    Run PyErr :=
  .compute fs (loadSpace L fs coreFile) (fun core =>
    .compute fs (Periph.new core raw.mat raw.id2row (some raw.row2id)) (fun p =>
      printR L fs p (outDir ++ ['/'] ++ (cs!"PER_SS." ++ lastComp pre) ++ ['.'] ++ stem coreFile) outFormat))

/-- `build_space` (`build_peripheral_space.py:85-88`). -/
def buildPeriphR (L : Lib) (fs : Fs) (pre fmt outDir : Str) (outFormat : Option Str) (coreFile : Str) (gz : Bool) :
    Run PyErr :=
  .compute fs (readInput L fs pre fmt gz) (fun raw => transformRawR L raw pre outDir outFormat coreFile fs)

/-- `build_space_batch` (`build_peripheral_space.py:107-122`). -/
def buildPeriphBatchR (L : Lib) (fs : Fs) (pre fmt outDir : Str) (outFormat : Option Str) (inDir filter : Str)
    (gz : Bool) : Run PyErr :=
  .compute fs (readInput L fs pre fmt gz) (fun raw =>
    if fs.exists_ inDir then
      .compute fs (fs.listdir L.dirOrder (withSlash inDir)) (fun names =>
        forR (fun _ name fs => transformRawR L raw pre outDir outFormat (withSlash inDir ++ name) fs) 0
          (names.filter (fun f => containsStr f filter && isPkl f)) fs)
    else .fail fs .valueError)

/-- One measure (`compute_similarities.py:110-128`); the input is read while the output grows. -/
def simMeasureR (L : Lib) (inFile : Str) (c0 c1 : ℤ) (outDir descr : Str) (s : Space Str) (space2 : Option (Space Str))
    (measure : Str) (fs : Fs) : Run PyErr :=
  match simOf measure with
  | none => .done fs
  | some sim =>
    (createParentR fs (outDir ++ ['/'] ++ descr ++ ['.'] ++ measure)).andThen (fun fs1 =>
      .compute fs1 (fs1.read inFile) (fun _ =>
        (writeR fs1 (outDir ++ ['/'] ++ descr ++ ['.'] ++ measure) (.ok [])).andThen (fun fs2 =>
          .compute fs2 (fs2.read inFile) (fun content =>
            writeR fs2 (outDir ++ ['/'] ++ descr ++ ['.'] ++ measure)
              (simText L c0 c1 s space2 sim (strippedLines content))))))

/-- `compute_sim` (`compute_similarities.py:83-128`). -/
def computeSimR (L : Lib) (inFile : Str) (columns : List Str) (outDir : Str) (measures files : List Str) (fs : Fs) :
    Run PyErr :=
  .compute fs (twoColumns columns) (fun c =>
    match files with
    | [] => .fail fs .indexError
    | f :: _ => match loadSpace L fs f with
      | .error .typeError => .done fs
      | .error e => .fail fs e
      | .ok s => .compute fs (loadSecond L fs files) (fun space2 =>
        forR (fun _ m fs => simMeasureR L inFile c.1 c.2 outDir
          (joinStr ['.'] [cs!"SIMS", lastComp inFile, spacesDescr files]) s space2 m fs) 0 measures fs))

/-- `compute_sim_batch` (`compute_similarities.py:67-80`). -/
def computeSimBatchR (L : Lib) (inFile : Str) (columns : List Str) (outDir : Str) (measures : List Str) (inDir : Str)
    (fs : Fs) : Run PyErr :=
  if fs.exists_ inDir then
    .compute fs (fs.listdir L.dirOrder (withSlash inDir)) (fun names =>
      forR (fun _ name fs => computeSimR L inFile columns outDir measures [withSlash inDir ++ name] fs) 0
        (names.filter isPkl) fs)
  else .fail fs .valueError

/-- `compute_neighbours` (`compute_neighbours.py:61-91`). -/
def computeNeighboursR (L : Lib) (inFile : Str) (n : ℤ) (outDir measure : Str) (files : List Str) (fs : Fs) : Run PyErr :=
  match simOf measure with
  | none => .fail fs .valueError
  | some sim => match files with
    | [] => .fail fs .indexError
    | f :: _ =>
      .compute fs (loadSpace L fs f) (fun s =>
        .compute fs (loadSecond L fs files) (fun space2 =>
          (createParentR fs (outDir ++ ['/'] ++ joinStr ['.'] [cs!"NEIGHBOURS", lastComp inFile, spacesDescr files] ++
              ['.'] ++ measure)).andThen (fun fs1 =>
            .compute fs1 (fs1.read inFile) (fun content =>
              .compute fs1 (readList content none) (fun ws =>
                (writeR fs1 (outDir ++ ['/'] ++ joinStr ['.'] [cs!"NEIGHBOURS", lastComp inFile, spacesDescr files] ++
                    ['.'] ++ measure) (.ok [])).andThen (fun fs2 =>
                  writeR fs2 (outDir ++ ['/'] ++ joinStr ['.'] [cs!"NEIGHBOURS", lastComp inFile, spacesDescr files] ++
                    ['.'] ++ measure) (neighboursText L s n sim space2 ws)))))))

/-- `export` of a composition model (`composition_model.py:216-227` and the `_export` methods). -/
def exportModelR (L : Lib) (fs : Fs) (m : PyObj) (file : Str) : Run PyErr :=
  match m with
  | .composer ⟨.multiplicative, _⟩ => .fail fs .illegalOperationError
  | .composer ⟨.weighted a b, _⟩ => (createParentR fs file).andThen (fun fs1 =>
      writeR fs1 file (.ok (paramText L.io cs!"alpha" a ++ ['\n'] ++ paramText L.io cs!"beta" b)))
  | .composer ⟨.dilation l, _⟩ => (createParentR fs file).andThen (fun fs1 =>
      writeR fs1 file (.ok (paramText L.io cs!"lambda" l)))
  | .composer ⟨.fullAdditive (some a) (some b) i _, _⟩ => (createParentR fs file).andThen (fun fs1 =>
      writeR fs1 file (.ok (fullAdditiveText L a b i)))
  | .composer ⟨.fullAdditive _ _ _ _, _⟩ => (createParentR fs file).andThen (fun fs1 => .fail fs1 .illegalStateError)
  | .lexfun m => (createParentR fs file).andThen (fun fs1 =>
      match m.functions with
      | none => .fail fs1 .illegalStateError
      | some s => exportR L.io fs1 s (L.csr s.mat) file (some fmtDm))
  | _ => .fail fs .attributeError

/-- `train_model` (`train_composition.py:74-129`). -/
def trainModelR (L : Lib) (fs : Fs) (inFile outDir model : Str) (argFiles : List Str) (phraseFile : Str)
    (regression : Option Str) (cv intercept : Bool) (param : ParamVal) (range : Option (List ℝ))
    (exportParams : Bool) : Run PyErr :=
  match argFiles with
  | [] => .fail fs .indexError
  | f :: _ =>
    .compute fs (loadSpace L fs f) (fun arg =>
      .compute fs (loadSecond L fs argFiles) (fun arg2 =>
        .compute fs (loadSpace L fs phraseFile) (fun phrase =>
          .compute fs (trainObj L model arg arg2 phrase regression cv intercept param range (fs.read inFile)) (fun obj =>
            (saveR fs (L.dump obj) (outDir ++ cs!"/TRAINED_COMP_MODEL" ++ ['.'] ++ model ++ ['.'] ++ lastComp inFile ++
              cs!".pkl")).andThen (fun fs1 =>
                if exportParams then exportModelR L fs1 obj (outDir ++ cs!"/TRAINED_COMP_MODEL" ++ ['.'] ++ model ++
                  ['.'] ++ lastComp inFile ++ cs!".params")
                else .done fs1)))))

/-- `apply_model` (`apply_composition.py:76-107`). -/
def applyModelR (L : Lib) (fs : Fs) (inFile outDir : Str) (model trained : Option Str) (argFiles : List Str)
    (alpha beta lam : Option ℝ) (outFormat : Option Str) : Run PyErr :=
  .compute fs (modelObj L fs model trained alpha beta lam) (fun m =>
    match argFiles with
    | [] => .fail fs .indexError
    | f :: _ =>
      .compute fs (loadSpace L fs f) (fun arg =>
        .compute fs (loadSecond L fs argFiles) (fun arg2 =>
          .compute fs (fs.read inFile) (fun content =>
            .compute fs (readTriples content) (fun data =>
              .compute fs (composeObj m data arg arg2) (fun s =>
                printR L fs s (outDir ++ cs!"/COMPOSED_SS" ++ ['.'] ++ className m ++ ['.'] ++ lastComp inFile)
                  outFormat))))))

/-! ### The `main` functions -/

/-- `main` of `build_core_space.py` (lines 221-313). -/
def mainCoreR (L : Lib) (fs : Fs) (argv : List Str) : Run MainErr :=
  .compute fs (cliCore.parseArgs L.parseCfg fs argv) fun st =>
  (configLoggingR fs (st cs!"log_file").asStr).lift.andThen fun fs1 =>
  .compute fs1 (require (st cs!"in_file_prefix").asStr) fun pre =>
  .compute fs1 (require (st cs!"out_dir").asStr) fun outDir =>
  .compute fs1 (require (st cs!"in_format").asStr) fun fmt =>
  .compute fs1 (Main.lift (L.evalBool (st cs!"gz").strD)) fun gz =>
  .compute fs1 (requireBool gz) fun gz =>
  (buildSpacesR L fs1 pre fmt outDir (st cs!"out_format").asStr (st cs!"weightings").asTokens
    (st cs!"selections").asTokens (st cs!"reductions").asTokens (st cs!"normalizations").asTokens gz).lift

/-- `main` of `build_peripheral_space.py` (lines 125-200). -/
def mainPeriphR (L : Lib) (fs : Fs) (argv : List Str) : Run MainErr :=
  .compute fs (cliPeriph.parseArgs L.parseCfg fs argv) fun st =>
  (configLoggingR fs (st cs!"log_file").asStr).lift.andThen fun fs1 =>
  .compute fs1 (require (st cs!"in_file_prefix").asStr) fun pre =>
  .compute fs1 (require (st cs!"out_dir").asStr) fun outDir =>
  .compute fs1 (require (st cs!"in_format").asStr) fun fmt =>
  .compute fs1 (Main.lift (L.evalBool (st cs!"gz").strD)) fun gz =>
  .compute fs1 (requireBool gz) fun gz =>
  match (st cs!"core_in_dir").asStr with
  | some d => (buildPeriphBatchR L fs1 pre fmt outDir (st cs!"out_format").asStr d (st cs!"core_filter").strD gz).lift
  | none => .compute fs1 (require (st cs!"core_space_file").asStr) fun core =>
    (buildPeriphR L fs1 pre fmt outDir (st cs!"out_format").asStr core gz).lift

/-- `main` of `compute_similarities.py` (lines 131-201). -/
def mainSimsR (L : Lib) (fs : Fs) (argv : List Str) : Run MainErr :=
  .compute fs (cliSims.parseArgs L.parseCfg fs argv) fun st =>
  (configLoggingR fs (st cs!"log_file").asStr).lift.andThen fun fs1 =>
  .compute fs1 (require (st cs!"in_file").asStr) fun inFile =>
  .compute fs1 (require (st cs!"out_dir").asStr) fun outDir =>
  .compute fs1 (require (st cs!"sim_measures").asList) fun measures =>
  .compute fs1 (require (st cs!"columns").asList) fun columns =>
  match (st cs!"in_dir").asStr with
  | some d => (computeSimBatchR L inFile columns outDir measures d fs1).lift
  | none => .compute fs1 (require (st cs!"spaces").asList) fun spaces =>
    (computeSimR L inFile columns outDir measures spaces fs1).lift

/-- `main` of `compute_neighbours.py` (lines 93-156). -/
def mainNeighR (L : Lib) (fs : Fs) (argv : List Str) : Run MainErr :=
  .compute fs (cliNeigh.parseArgs L.parseCfg fs argv) fun st =>
  (configLoggingR fs (st cs!"log_file").asStr).lift.andThen fun fs1 =>
  .compute fs1 (Main.lift (pyInt (st cs!"no_neighbours").strD)) fun n =>
  .compute fs1 (require (st cs!"in_file").asStr) fun inFile =>
  .compute fs1 (require (st cs!"out_dir").asStr) fun outDir =>
  .compute fs1 (require (st cs!"sim_measure").asStr) fun measure =>
  .compute fs1 (require (st cs!"spaces").asList) fun spaces =>
  (computeNeighboursR L inFile n outDir measure spaces fs1).lift

/-- `main` of `evaluate_similarities.py` (lines 95-161): only the log file is written; the numbers printed are the result
of `mainEval`. -/
def mainEvalR (L : Lib) (fs : Fs) (argv : List Str) : Run MainErr :=
  .compute fs (cliEval.parseArgs L.parseCfg fs argv) fun st =>
  (configLoggingR fs (st cs!"log_file").asStr).lift.andThen fun fs1 =>
  .compute fs1 (mainEval L fs argv) fun _ => .done fs1

/-- `main` of `train_composition.py` (lines 132-236). -/
def mainTrainR (L : Lib) (fs : Fs) (argv : List Str) : Run MainErr :=
  .compute fs (cliTrain.parseArgs L.parseCfg fs argv) fun st =>
  (configLoggingR fs (st cs!"log_file").asStr).lift.andThen fun fs1 =>
  .compute fs1 (require (st cs!"in_file").asStr) fun inFile =>
  .compute fs1 (require (st cs!"out_dir").asStr) fun outDir =>
  .compute fs1 (require (st cs!"model").asStr) fun model =>
  .compute fs1 (require (st cs!"arg_space").asList) fun argFiles =>
  .compute fs1 (require (st cs!"phrase_space").asStr) fun phraseFile =>
  .compute fs1 (Main.lift (L.evalBool (st cs!"crossvalidation").strD)) fun cv =>
  .compute fs1 (Main.lift (L.evalBool (st cs!"intercept").strD)) fun ic =>
  .compute fs1 (requireBool ic) fun ic =>
  .compute fs1 (requireBool cv) fun cv =>
  .compute fs1 (Main.lift (L.evalBool (st cs!"export_params").strD)) fun ex =>
  .compute fs1 (requireBool ex) fun ex =>
  .compute fs1 (Main.lift (paramsOf L.io (st cs!"param").asStr (st cs!"param_range").asList)) fun pr =>
  .compute fs1 (checkLambda cv (st cs!"regression").asStr pr.1) fun _ =>
  (trainModelR L fs1 inFile outDir model argFiles phraseFile (st cs!"regression").asStr cv ic pr.1 pr.2 ex).lift

/-- `main` of `apply_composition.py` (lines 110-195). -/
def mainApplyR (L : Lib) (fs : Fs) (argv : List Str) : Run MainErr :=
  .compute fs (cliApply.parseArgs L.parseCfg fs argv) fun st =>
  (configLoggingR fs (st cs!"log_file").asStr).lift.andThen fun fs1 =>
  .compute fs1 (require (st cs!"in_file").asStr) fun inFile =>
  .compute fs1 (require (st cs!"out_dir").asStr) fun outDir =>
  .compute fs1 (requireXor (st cs!"model").asStr (st cs!"trained_model").asStr) fun _ =>
  .compute fs1 (require (st cs!"arg_space").asList) fun argFiles =>
  .compute fs1 (Main.lift (floatOpt L.io (st cs!"alpha").asStr)) fun alpha =>
  .compute fs1 (Main.lift (floatOpt L.io (st cs!"beta").asStr)) fun beta =>
  .compute fs1 (Main.lift (floatOpt L.io (st cs!"lambda_").asStr)) fun lam =>
  (applyModelR L fs1 inFile outDir (st cs!"model").asStr (st cs!"trained_model").asStr argFiles alpha beta lam
    (st cs!"out_format").asStr).lift

end
end Dissect
