import Verif.Model.Cli
import Verif.Model.Io
import Verif.Model.Composition
import Verif.Model.Scoring

/-!
# The pipelines (`/repo/src/pipelines/*.py`)

The working functions of the seven scripts and their `main`. Simplifications common to all: text printed to the
terminal is left out (except by `evaluate_similarities.py`, whose only effect it is), warnings and the content of log
files are left out, and when an exception is raised the files written before it are not described.
-/

namespace Dissect
noncomputable section

/-- The objects that can be pickled: spaces (core or peripheral), composition models, anything else. -/
inductive PyObj
  | space (s : Space Str)
  | composer (c : Composer Str)
  | lexfun (m : LexFun Str)
  | other (n : ℕ)

/-- What the scripts take from Python and its libraries: numpy (`env`), number conversions (`io`), `pickle.dump` /
`pickle.load`, `str(x)` of a float, `str(m)` of an array, the CSR arrays of a sparse matrix, the random choices of the
NMF run at a place of the nested loops, `eval` of an option value (`none`: neither true nor false; simplification: no
side effects), `ConfigParser`, `scipy.stats`, the order of `os.listdir`. -/
structure Lib where
  env : Env
  io : NumIO
  dump : PyObj → Str
  undump : Str → Option PyObj
  strNum : ℝ → Str
  strMat : Mat ℝ → Str
  csr : TMat ℝ → Csr ℝ
  chance : ℕ → ℕ → ℕ → Chance
  evalBool : Str → Py (Option Bool)
  parseCfg : Str → Py Config
  stats : StatsLib
  dirOrder : List Str → List Str

/-! ### Builtins -/

/-- The decimal value of a digit string. -/
def digitsVal (s : Str) : ℕ := s.foldl (fun a c => 10 * a + (c.toNat - 48)) 0

/-- A non-empty string of decimal digits. -/
def isDigits (s : Str) : Bool := decide (s ≠ []) && s.all (fun c => decide (48 ≤ c.toNat ∧ c.toNat ≤ 57))

/-- `int(s)` (Python builtin): surrounding white space and one sign are allowed. -/
def pyInt (s : Str) : Py ℤ :=
  match strip s with
  | '-' :: ds => if isDigits ds then .ok (-(digitsVal ds : ℤ)) else .error .valueError
  | '+' :: ds => if isDigits ds then .ok (digitsVal ds : ℤ) else .error .valueError
  | ds => if isDigits ds then .ok (digitsVal ds : ℤ) else .error .valueError

/-- `float(s)` (Python builtin). -/
def pyFloat (io : NumIO) (s : Str) : Py ℝ :=
  match io.parse s with
  | some x => .ok x
  | none => .error .valueError

/-- `p.split("/")[-1]`. -/
def lastComp (p : Str) : Str := ((splitCh '/' p).getLast?).getD []

/-- `".".join(f.split("/")[-1].split(".")[0:-1])`: the file name without its last extension
(`compute_similarities.py:102`, `build_peripheral_space.py:95`). -/
def stem (f : Str) : Str := joinStr ['.'] (splitCh '.' (lastComp f)).dropLast

/-- The order of strings used by `sorted`. -/
def strLe (a b : Str) : Bool := !(decide (b < a))

/-- Names in a directory. -/
def Fs.children (fs : Fs) (d : List Str) : List Str :=
  ((fs.dirs ++ fs.files.keys).filter (fun p => decide (p ≠ [] ∧ p.dropLast = d))).filterMap List.getLast?

/-- `os.listdir(p)`, in the order the system returns (`order`). -/
def Fs.listdir (order : List Str → List Str) (fs : Fs) (p : Str) : Py (List Str) :=
  if p ≠ [] ∧ fs.resolve p ∈ fs.dirs then .ok (order (fs.children (fs.resolve p))) else .error .osError

/-- `config_logging` (`utils/log_utils.py:11-15`): the file is opened for appending, which creates it. -/
def configLogging (fs : Fs) (file : Option Str) : Py Fs :=
  match file with
  | none => .ok fs
  | some f => do
    let fs1 ← fs.createParentDirectories f
    match fs1.read f with
    | .ok _ => .ok fs1
    | .error _ => fs1.write f []

/-- `io_utils.load(f, Space)`. -/
def loadSpace (L : Lib) (fs : Fs) (f : Str) : Py (Space Str) := do
  match ← Fs.load L.undump none fs f with
  | .space s => .ok s
  | _ => .error .typeError

/-- `io_utils.load(f, CompositionModel)` (`apply_composition.py:85`). -/
def loadModel (L : Lib) (fs : Fs) (f : Str) : Py PyObj := do
  match ← Fs.load L.undump none fs f with
  | .composer c => .ok (.composer c)
  | .lexfun m => .ok (.lexfun m)
  | _ => .error .typeError

/-! ### `read_tuple_list` and `read_list` -/

/-- `elements = np.array(elements)[field_list]` (`io_utils.py:102-107`). -/
def pickFields (elems : List Str) : List ℤ → Py (List Str)
  | [] => .ok []
  | f :: fs => do
    let x ← pyGet elems f
    let xs ← pickFields elems fs
    return x :: xs

/-- The loop of `read_tuple_list` (`io_utils.py:96-109`); an empty field list selects everything. -/
def readTuples (fields : List ℤ) : List (List Str) → Py (List (List Str))
  | [] => .ok []
  | elems :: ls => do
    let t ← if fields = [] then .ok elems else pickFields elems fields
    let ts ← readTuples fields ls
    return t :: ts

/-- `read_tuple_list` (`io_utils.py:87-111`) on the content of the file. -/
def readTupleList (content : Str) (fields : List ℤ) : Py (List (List Str)) := readTuples fields (tokenLines content)

/-- The non-blank stripped lines of a file. -/
def strippedLines (content : Str) : List Str := ((fileLines content).map strip).filter (fun l => decide (l ≠ []))

/-- The loop of `read_list` with a field (`io_utils.py:120-129`). -/
def readFieldLoop (field : ℤ) : List Str → Py (List Str)
  | [] => .ok []
  | l :: ls => do
    let x ← pyGet (split l) field
    let xs ← readFieldLoop field ls
    return x :: xs

/-- `read_list` (`io_utils.py:114-131`) on the content of the file. -/
def readList (content : Str) (field : Option ℤ) : Py (List Str) :=
  match field with
  | none => .ok (strippedLines content)
  | some f => readFieldLoop f (strippedLines content)

/-- `read_tuple_list(in_file, fields=[0, 1, 2])` as triples (`train_composition.py:116`, `apply_composition.py:94`). -/
def readTriples (content : Str) : Py (List (Triple Str)) := do
  let ts ← readTupleList content [0, 1, 2]
  return ts.filterMap (fun t => match t with
    | [a, b, c] => some (a, b, c)
    | _ => none)

/-! ### `build_core_space.py` -/

/-- `weightings_dict` (`build_core_space.py:78-81`). -/
def weightingOf (w : Str) : Option ScalingT :=
  if w = cs!"plog" then some .plog
  else if w = cs!"ppmi" then some .ppmi
  else if w = cs!"epmi" then some .epmi
  else if w = cs!"plmi" then some .plmi
  else none

/-- `apply_weighting` (`build_core_space.py:76-93`). -/
def applyWeighting (env : Env) (s : Space Str) (w : Option Str) : Py (Space Str) :=
  match w with
  | none => .ok s
  | some t =>
    if t = cs!"none" then .ok s
    else match weightingOf t with
      | none => .ok s
      | some sc => s.apply env (.scaling sc)

/-- `selection_crit_list` (`build_core_space.py:99`). -/
def critOf (c : Str) : Option Crit :=
  if c = cs!"sum" then some .sum else if c = cs!"length" then some .length else none

/-- The constructors of feature selections and dimensionality reductions reject sizes that are not positive
(`feature_selection.py:14-19`, `dimensionality_reduction.py:15-22`). -/
def positiveDim (k : ℤ) : Py ℕ := if k ≤ 0 then .error .valueError else .ok k.toNat

/-- `apply_selection` (`build_core_space.py:96-122`). -/
def applySelection (env : Env) (s : Space Str) (sel : Option Str) : Py (Space Str) :=
  match sel with
  | none => .ok s
  | some t =>
    if t = cs!"none" then .ok s
    else match splitCh '_' t with
      | [ty, crit, dim] =>
        if ty ≠ cs!"top" then .ok s
        else match critOf crit with
          | none => .ok s
          | some c => do
            let i ← pyInt dim
            let k ← positiveDim i
            s.apply env (.featsel k c)
      | _ => .ok s

/-- `reductions_dict` (`build_core_space.py:125-126`). -/
def reductionOf (r : Str) (ch : Chance) : Option (ℕ → DimRedT) :=
  if r = cs!"svd" then some .svd else if r = cs!"nmf" then some (fun k => .nmf k ch) else none

/-- `apply_reduction` (`build_core_space.py:124-145`). -/
def applyReduction (env : Env) (ch : Chance) (s : Space Str) (red : Option Str) : Py (Space Str) :=
  match red with
  | none => .ok s
  | some t =>
    if t = cs!"none" then .ok s
    else match splitCh '_' t with
      | [ty, dim] => match reductionOf ty ch with
        | none => .ok s
        | some mk => do
          let i ← pyInt dim
          let k ← positiveDim i
          s.apply env (.dimred (mk k))
      | _ => .ok s

/-- `normalizations_dict` (`build_core_space.py:148-149`) with the default criteria (`normalization.py:24`,
`row_normalization.py:25`). -/
def normalizationOf (n : Str) : Option ScalingT :=
  if n = cs!"all" then some (.norm .sum) else if n = cs!"row" then some (.rowNorm .length) else none

/-- `apply_normalization` (`build_core_space.py:147-163`). -/
def applyNormalization (env : Env) (s : Space Str) (n : Option Str) : Py (Space Str) :=
  match n with
  | none => .ok s
  | some t =>
    if t = cs!"none" then .ok s
    else match normalizationOf t with
      | none => .ok s
      | some sc => s.apply env (.scaling sc)

/-- `[op for op in op_list if (op and (not op == "none"))]` (`build_core_space.py:168`). -/
def keptOps (ops : List (Option Str)) : List Str :=
  (ops.filterMap id).filter (fun op => decide (op ≠ [] ∧ op ≠ cs!"none"))

/-- `out_file` of `print_space` (`build_core_space.py:168-170`). -/
def spaceFile (outDir : Str) (ops : List (Option Str)) : Str := outDir ++ ['/'] ++ joinStr ['.'] (keptOps ops)

/-- The optional export of a space (`build_core_space.py:173-174`). -/
def exportOpt (L : Lib) (fs : Fs) (s : Space Str) (pre : Str) (outFormat : Option Str) : Py Fs :=
  match outFormat with
  | none => .ok fs
  | some f => s.export L.io fs (L.csr s.mat) pre (some f)

/-- `print_space` (`build_core_space.py:166-174`). -/
def printSpace (L : Lib) (s : Space Str) (outDir : Str) (ops : List (Option Str)) (outFormat : Option Str) (fs : Fs) :
    Py Fs := do
  let fs1 ← fs.save (L.dump (.space s)) (spaceFile outDir ops ++ cs!".pkl")
  exportOpt L fs1 s (spaceFile outDir ops) outFormat

/-- An optional file: its name if it exists (`build_core_space.py:193-199`). -/
def fileIfExists (fs : Fs) (f : Str) : Option Str := if fs.exists_ f then some f else none

/-- Reading the input space (`build_core_space.py:181-203`, `build_peripheral_space.py:58-82`). -/
def readInput (L : Lib) (fs : Fs) (pre fmt : Str) (gz : Bool) : Py (Space Str) :=
  let dataFile := pre ++ ['.'] ++ fmt
  if fmt ≠ fmtSm ∧ fmt ≠ fmtDm ∧ fmt ≠ cs!"pkl" then .error .valueError
  else if fmt = cs!"pkl" then loadSpace L fs dataFile
  else
    let dataFile' := if gz then dataFile ++ cs!".gz" else dataFile
    let rows := fileIfExists fs (pre ++ cs!".rows")
    let cols := fileIfExists fs (pre ++ cs!".cols")
    if cols = none ∧ fmt = fmtSm then .error .valueError
    else Space.build L.io fs ⟨some dataFile', some fmt, rows, cols⟩

/-- `for x in l: ...` with the position and the file system as state. -/
def forFs {α : Type} (f : ℕ → α → Fs → Py Fs) : ℕ → List α → Fs → Py Fs
  | _, [], fs => .ok fs
  | i, x :: xs, fs => do
    let fs' ← f i x fs
    forFs f (i + 1) xs fs'

/-- The innermost loop (`build_core_space.py:214-218`). -/
def normLoop (L : Lib) (outDir : Str) (outFormat : Option Str) (ns : List (Option Str)) (descr : Str)
    (w s r : Option Str) (rSpace : Space Str) (fs : Fs) : Py Fs :=
  forFs (fun _ n fs => do
    let nSpace ← applyNormalization L.env rSpace n
    printSpace L nSpace outDir [some descr, w, s, r, n] outFormat fs) 0 ns fs

/-- The loop over the reductions (`build_core_space.py:211-218`); `i`, `j` are the positions of the outer loops. -/
def redLoop (L : Lib) (outDir : Str) (outFormat : Option Str) (rs ns : List (Option Str)) (descr : Str)
    (w s : Option Str) (i j : ℕ) (sSpace : Space Str) (fs : Fs) : Py Fs :=
  forFs (fun k r fs => do
    let rSpace ← applyReduction L.env (L.chance i j k) sSpace r
    normLoop L outDir outFormat ns descr w s r rSpace fs) 0 rs fs

/-- The loop over the selections (`build_core_space.py:208-218`). -/
def selLoop (L : Lib) (outDir : Str) (outFormat : Option Str) (ss rs ns : List (Option Str)) (descr : Str)
    (w : Option Str) (i : ℕ) (wSpace : Space Str) (fs : Fs) : Py Fs :=
  forFs (fun j s fs => do
    let sSpace ← applySelection L.env wSpace s
    redLoop L outDir outFormat rs ns descr w s i j sSpace fs) 0 ss fs

/-- `"CORE_SS." + in_file_prefix.split("/")[-1]` (`build_core_space.py:180`). -/
def coreDescr (pre : Str) : Str := cs!"CORE_SS." ++ lastComp pre

/-- `build_spaces` (`build_core_space.py:177-218`). -/
def buildSpaces (L : Lib) (fs : Fs) (pre fmt outDir : Str) (outFormat : Option Str)
    (ws ss rs ns : List (Option Str)) (gz : Bool) : Py Fs := do
  let space ← readInput L fs pre fmt gz
  forFs (fun i w fs => do
    let wSpace ← applyWeighting L.env space w
    selLoop L outDir outFormat ss rs ns (coreDescr pre) w i wSpace fs) 0 ws fs

/-! ### `build_peripheral_space.py` -/

/-- `transform_raw_per_space` (`build_peripheral_space.py:91-104`). -/
def transformRaw (L : Lib) (raw : Space Str) (pre outDir : Str) (outFormat : Option Str) (coreFile : Str) (fs : Fs) :
    Py Fs := do
  let core ← loadSpace L fs coreFile
  let p ← Periph.new core raw.mat raw.id2row (some raw.row2id)
  let out := outDir ++ ['/'] ++ (cs!"PER_SS." ++ lastComp pre) ++ ['.'] ++ stem coreFile
  let fs1 ← fs.save (L.dump (.space p)) (out ++ cs!".pkl")
  exportOpt L fs1 p out outFormat

/-- `build_space` (`build_peripheral_space.py:85-88`). -/
def buildPeriph (L : Lib) (fs : Fs) (pre fmt outDir : Str) (outFormat : Option Str) (coreFile : Str) (gz : Bool) :
    Py Fs := do
  let raw ← readInput L fs pre fmt gz
  transformRaw L raw pre outDir outFormat coreFile fs

/-- `in_dir = in_dir + "/"` unless it ends in a slash (`build_peripheral_space.py:115-116`). -/
def withSlash (d : Str) : Str := if d.getLast? = some '/' then d else d ++ ['/']

/-- `file_.endswith(".pkl")`. -/
def isPkl (f : Str) : Bool := decide (cs!".pkl" <:+ f)

/-- `file_.find(filter) != -1`. -/
def containsStr (f sub : Str) : Bool := decide (sub <:+: f)

/-- `build_space_batch` (`build_peripheral_space.py:107-122`). -/
def buildPeriphBatch (L : Lib) (fs : Fs) (pre fmt outDir : Str) (outFormat : Option Str) (inDir filter : Str)
    (gz : Bool) : Py Fs := do
  let raw ← readInput L fs pre fmt gz
  if fs.exists_ inDir then do
    let names ← fs.listdir L.dirOrder (withSlash inDir)
    forFs (fun _ name fs => transformRaw L raw pre outDir outFormat (withSlash inDir ++ name) fs) 0
      (names.filter (fun f => containsStr f filter && isPkl f)) fs
  else .error .valueError

/-! ### `compute_similarities.py` -/

/-- `sim_dict` (`compute_similarities.py:85-88`, `compute_neighbours.py:62-65`). -/
def simOf (m : Str) : Option Sim :=
  if m = cs!"cos" then some .cos
  else if m = cs!"lin" then some .lin
  else if m = cs!"dot_prod" then some .dot
  else if m = cs!"euclidean" then some .euclid
  else none

/-- `col0 = int(columns[0]) - 1; col1 = int(columns[1]) - 1` (`compute_similarities.py:90-93`). -/
def twoColumns (cols : List Str) : Py (ℤ × ℤ) :=
  match cols with
  | [a, b] => do
    let x ← pyInt a
    let y ← pyInt b
    return (x - 1, y - 1)
  | _ => .error .valueError

/-- The line loop (`compute_similarities.py:121-128`) over the stripped non-blank lines: the text written. -/
def simText (L : Lib) (c0 c1 : ℤ) (s : Space Str) (space2 : Option (Space Str)) (sim : Sim) : List Str → Py Str
  | [] => .ok []
  | line :: ls => do
    let w1 ← pyGet (split line) c0
    let w2 ← pyGet (split line) c1
    let x ← s.getSim w1 w2 sim space2
    let rest ← simText L c0 c1 s space2 sim ls
    return line ++ [' '] ++ L.strNum x ++ ['\n'] ++ rest

/-- One measure (`compute_similarities.py:110-128`): both files are opened before the loop, the output is truncated. -/
def simMeasure (L : Lib) (inFile : Str) (c0 c1 : ℤ) (outDir descr : Str) (s : Space Str) (space2 : Option (Space Str))
    (measure : Str) (fs : Fs) : Py Fs :=
  match simOf measure with
  | none => .ok fs
  | some sim => do
    let out := outDir ++ ['/'] ++ descr ++ ['.'] ++ measure
    let fs1 ← fs.createParentDirectories out
    let _ ← fs1.read inFile
    let fs2 ← fs1.write out []
    let content ← fs2.read inFile
    let txt ← simText L c0 c1 s space2 sim (strippedLines content)
    fs2.write out txt

/-- The second space, when two files are given (`compute_similarities.py:101-106`, `compute_neighbours.py:71-75`). -/
def loadSecond (L : Lib) (fs : Fs) (files : List Str) : Py (Option (Space Str)) :=
  match files with
  | [_, f] => do
    let s ← loadSpace L fs f
    return some s
  | _ => .ok none

/-- The part of the output name that describes the spaces (`compute_similarities.py:102-106`). -/
def spacesDescr (files : List Str) : Str :=
  match files with
  | [] => []
  | [f, g] => joinStr ['.'] (stem f :: (splitCh '.' (lastComp g)).dropLast)
  | f :: _ => stem f

/-- `compute_sim` (`compute_similarities.py:83-128`). A first file that holds something else than a space is skipped with
a warning. -/
def computeSim (L : Lib) (inFile : Str) (columns : List Str) (outDir : Str) (measures files : List Str) (fs : Fs) :
    Py Fs := do
  let (c0, c1) ← twoColumns columns
  match files with
  | [] => .error .indexError
  | f :: _ => match loadSpace L fs f with
    | .error .typeError => .ok fs
    | .error e => .error e
    | .ok s => do
      let space2 ← loadSecond L fs files
      let descr := joinStr ['.'] [cs!"SIMS", lastComp inFile, spacesDescr files]
      forFs (fun _ m fs => simMeasure L inFile c0 c1 outDir descr s space2 m fs) 0 measures fs

/-- `compute_sim_batch` (`compute_similarities.py:67-80`). -/
def computeSimBatch (L : Lib) (inFile : Str) (columns : List Str) (outDir : Str) (measures : List Str) (inDir : Str)
    (fs : Fs) : Py Fs :=
  if fs.exists_ inDir then do
    let names ← fs.listdir L.dirOrder (withSlash inDir)
    forFs (fun _ name fs => computeSim L inFile columns outDir measures [withSlash inDir ++ name] fs) 0
      (names.filter isPkl) fs
  else .error .valueError

/-! ### `compute_neighbours.py` -/

/-- `for neighbour, neighbour_sim in result: ...` (`compute_neighbours.py:90-91`). -/
def neighbourText (L : Lib) (ns : List (Str × ℝ)) : Str :=
  (ns.map (fun p => ['\t'] ++ p.1 ++ [' '] ++ L.strNum p.2 ++ ['\n'])).flatten

/-- The loop over the words (`compute_neighbours.py:87-91`). -/
def neighboursText (L : Lib) (s : Space Str) (n : ℤ) (sim : Sim) (space2 : Option (Space Str)) : List Str → Py Str
  | [] => .ok []
  | w :: ws => do
    let r ← s.getNeighbours w n sim space2
    let rest ← neighboursText L s n sim space2 ws
    return w ++ ['\n'] ++ neighbourText L r ++ rest

/-- `compute_neighbours` (`compute_neighbours.py:61-91`). -/
def computeNeighbours (L : Lib) (inFile : Str) (n : ℤ) (outDir measure : Str) (files : List Str) (fs : Fs) : Py Fs :=
  match simOf measure with
  | none => .error .valueError
  | some sim => match files with
    | [] => .error .indexError
    | f :: _ => do
      let s ← loadSpace L fs f
      let space2 ← loadSecond L fs files
      let out := outDir ++ ['/'] ++ joinStr ['.'] [cs!"NEIGHBOURS", lastComp inFile, spacesDescr files] ++ ['.'] ++ measure
      let fs1 ← fs.createParentDirectories out
      let content ← fs1.read inFile
      let ws ← readList content none
      let fs2 ← fs1.write out []
      let txt ← neighboursText L s n sim space2 ws
      fs2.write out txt

/-! ### `evaluate_similarities.py` -/

/-- The line loop (`evaluate_similarities.py:69-73`): `gold` and `prediction`. -/
def goldPrediction (io : NumIO) (c0 c1 : ℤ) : List Str → Py (List ℝ × List ℝ)
  | [] => .ok ([], [])
  | line :: ls => do
    let a ← pyGet (split line) c0
    let g ← pyFloat io a
    let b ← pyGet (split line) c1
    let p ← pyFloat io b
    let (gs, ps) ← goldPrediction io c0 c1 ls
    return (g :: gs, p :: ps)

/-- The loop over the measures (`evaluate_similarities.py:75-78`): the measures with the correlations printed. -/
def scoreLoop (lib : StatsLib) (gold pred : List ℝ) : List Str → Py (List (Str × ℝ))
  | [] => .ok []
  | m :: ms => do
    let x ← score lib gold pred m
    let rest ← scoreLoop lib gold pred ms
    return (m, x) :: rest

/-- `evaluate_sim` (`evaluate_similarities.py:59-78`): what is printed. -/
def evaluateSim (L : Lib) (fs : Fs) (inFile : Str) (columns measures : List Str) : Py (List (Str × ℝ)) := do
  let (c0, c1) ← twoColumns columns
  let content ← fs.read inFile
  let (gold, pred) ← goldPrediction L.io c0 c1 (strippedLines content)
  scoreLoop L.stats gold pred measures

/-- The loop of `evaluate_sim_batch` (`evaluate_similarities.py:89-92`) over the selected names. -/
def evalLoop (L : Lib) (fs : Fs) (dir : Str) (columns measures : List Str) : List Str → Py (List (Str × List (Str × ℝ)))
  | [] => .ok []
  | f :: names => do
    let r ← evaluateSim L fs (dir ++ f) columns measures
    let rest ← evalLoop L fs dir columns measures names
    return (f, r) :: rest

/-- `evaluate_sim_batch` (`evaluate_similarities.py:81-92`). -/
def evaluateSimBatch (L : Lib) (fs : Fs) (inDir : Str) (columns measures : List Str) (filter : Str) :
    Py (List (Str × List (Str × ℝ))) :=
  if fs.exists_ inDir then do
    let names ← fs.listdir L.dirOrder (withSlash inDir)
    evalLoop L fs (withSlash inDir) columns measures (names.filter (fun f => containsStr f filter))
  else .error .valueError

/-! ### Export of composition models -/

/-- `"\n".join`-free text of a scalar parameter: `"name\t%f"`. -/
def paramText (io : NumIO) (name : Str) (x : ℝ) : Str := name ++ ['\t'] ++ io.fmtF x

/-- The text of the matrices of a `FullAdditive` model (`full_additive.py:119-129`). -/
def fullAdditiveText (L : Lib) (at_ bt : TMat ℝ) (intercept : Bool) : Str :=
  cs!"A\n" ++ L.strMat at_.val.transpose ++ cs!"\nB\n" ++
  (if intercept then
    L.strMat (bt.val.selRows ((List.range bt.nr).dropLast)).transpose ++ cs!"\nIntercept\n" ++
      L.strMat (bt.val.selRows [bt.nr - 1]).transpose
   else L.strMat bt.val.transpose)

/-- `export` of a composition model (`composition_model.py:216-227`, `_export` of `weighted_additive.py:125-128`,
`dilation.py:89-91`, `full_additive.py:115-129`, `lexical_function.py:297-300`, `multiplicative.py:38-42`). -/
def exportModel (L : Lib) (fs : Fs) (m : PyObj) (file : Str) : Py Fs :=
  match m with
  | .composer ⟨.multiplicative, _⟩ => .error .illegalOperationError
  | .composer ⟨.weighted a b, _⟩ => do
    let fs1 ← fs.createParentDirectories file
    fs1.write file (paramText L.io cs!"alpha" a ++ ['\n'] ++ paramText L.io cs!"beta" b)
  | .composer ⟨.dilation l, _⟩ => do
    let fs1 ← fs.createParentDirectories file
    fs1.write file (paramText L.io cs!"lambda" l)
  | .composer ⟨.fullAdditive (some a) (some b) i _, _⟩ => do
    let fs1 ← fs.createParentDirectories file
    fs1.write file (fullAdditiveText L a b i)
  | .composer ⟨.fullAdditive _ _ _ _, _⟩ => do
    let _ ← fs.createParentDirectories file
    .error .illegalStateError
  | .lexfun m => do
    let fs1 ← fs.createParentDirectories file
    match m.functions with
    | none => .error .illegalStateError
    | some s => s.export L.io fs1 (L.csr s.mat) file (some fmtDm)
  | _ => .error .attributeError

/-! ### `train_composition.py` -/

/-- A value of the variable `param` of `main`: `None`, a number, or (after the list comprehension of line 230, whose loop
variable is the same name and leaks in Python 2) a string. -/
inductive ParamVal
  | none
  | num (x : ℝ)
  | text (s : Str)

/-- The regression learner (`train_composition.py:103-114`). A string given as `param` is stored as it is; training with
it raises `TypeError` exactly like a missing parameter (`"0.5" * matrix`), so it is represented by `none`. -/
def makeLearner (regression : Option Str) (cv intercept : Bool) (param : ParamVal) (range : Option (List ℝ)) :
    Py Learner :=
  if regression = some cs!"ridge" then
    match param with
    | .none => Learner.newRidge ⟨["crossvalidation", "intercept", "param", "param_range"], some intercept, some range,
        some none, some cv⟩
    | .num x => Learner.newRidge ⟨["crossvalidation", "intercept", "param", "param_range"], some intercept, some range,
        some (some x), some cv⟩
    | .text _ => .ok (.ridge intercept cv (range.getD Learner.defaultRange) none)
  else if regression = some cs!"lstsq" then .ok (.lstsq intercept)
  else .ok (.lstsq true)

/-- The trained model (`train_composition.py:96-122`). -/
def trainObj (L : Lib) (model : Str) (arg : Space Str) (arg2 : Option (Space Str)) (phrase : Space Str)
    (regression : Option Str) (cv intercept : Bool) (param : ParamVal) (range : Option (List ℝ)) (content : Py Str) :
    Py PyObj :=
  let args : ArgSpace Str := match arg2 with
    | none => .one arg
    | some a2 => .tuple [arg, a2]
  if model = cs!"weighted_add" then do
    let c ← newWeighted (κ := Str) .absent .absent
    let data ← content.bind readTriples
    let c' ← c.train L.env data args phrase
    return .composer c'
  else if model = cs!"dilation" then do
    let c ← newDilation (κ := Str) .absent
    let data ← content.bind readTriples
    let c' ← c.train L.env data args phrase
    return .composer c'
  else if model = cs!"full_add" then do
    let l ← makeLearner regression cv intercept param range
    let data ← content.bind readTriples
    let c' ← (newFullAdditiveLearner l : Composer Str).train L.env data args phrase
    return .composer c'
  else if model = cs!"lexical_func" then do
    let l ← makeLearner regression cv intercept param range
    let data ← content.bind readTriples
    let m' ← (LexFun.ofLearner l).train L.env strLe data arg phrase
    return .lexfun m'
  else .error .valueError

/-- `train_model` (`train_composition.py:74-129`). -/
def trainModel (L : Lib) (fs : Fs) (inFile outDir model : Str) (argFiles : List Str) (phraseFile : Str)
    (regression : Option Str) (cv intercept : Bool) (param : ParamVal) (range : Option (List ℝ))
    (exportParams : Bool) : Py Fs := do
  match argFiles with
  | [] => .error .indexError
  | f :: _ => do
    let arg ← loadSpace L fs f
    let arg2 ← loadSecond L fs argFiles
    let phrase ← loadSpace L fs phraseFile
    let obj ← trainObj L model arg arg2 phrase regression cv intercept param range (fs.read inFile)
    let out := outDir ++ cs!"/TRAINED_COMP_MODEL" ++ ['.'] ++ model ++ ['.'] ++ lastComp inFile
    let fs1 ← fs.save (L.dump obj) (out ++ cs!".pkl")
    if exportParams then exportModel L fs1 obj (out ++ cs!".params") else .ok fs1

/-! ### `apply_composition.py` -/

/-- An optional number as a constructor argument. -/
def numArg (x : Option ℝ) : NumArg :=
  match x with
  | none => .absent
  | some x => .num x

/-- `create_model` (`apply_composition.py:57-73`). -/
def createModel (model : Str) (alpha beta lam : Option ℝ) : Py PyObj :=
  if model = cs!"weighted_add" then do
    let c ← newWeighted (κ := Str) (numArg alpha) (numArg beta)
    return .composer c
  else if model = cs!"dilation" then do
    let c ← newDilation (κ := Str) (numArg lam)
    return .composer c
  else if model = cs!"mult" then .ok (.composer newMultiplicative)
  else .error .valueError

/-- `type(model_obj).__name__` (`apply_composition.py:87`). -/
def className (m : PyObj) : Str :=
  match m with
  | .composer ⟨.weighted _ _, _⟩ => cs!"WeightedAdditive"
  | .composer ⟨.dilation _, _⟩ => cs!"Dilation"
  | .composer ⟨.multiplicative, _⟩ => cs!"Multiplicative"
  | .composer ⟨.fullAdditive _ _ _ _, _⟩ => cs!"FullAdditive"
  | .lexfun _ => cs!"LexicalFunction"
  | _ => []

/-- `compose` of the model object (`apply_composition.py:97-100`). -/
def composeObj (m : PyObj) (data : List (Triple Str)) (arg : Space Str) (arg2 : Option (Space Str)) : Py (Space Str) :=
  match m with
  | .lexfun lf => lf.compose data arg
  | .composer c => match arg2 with
    | none => (c.compose data (.one arg)).2
    | some a2 => (c.compose data (.tuple [arg, a2])).2
  | _ => .error .attributeError

/-- The model object (`apply_composition.py:82-85`); `main` guarantees that one of the two is given. -/
def modelObj (L : Lib) (fs : Fs) (model trained : Option Str) (alpha beta lam : Option ℝ) : Py PyObj :=
  match model, trained with
  | some m, _ => createModel m alpha beta lam
  | none, some t => loadModel L fs t
  | none, none => .error .typeError

/-- `apply_model` (`apply_composition.py:76-107`). -/
def applyModel (L : Lib) (fs : Fs) (inFile outDir : Str) (model trained : Option Str) (argFiles : List Str)
    (alpha beta lam : Option ℝ) (outFormat : Option Str) : Py Fs := do
  let m ← modelObj L fs model trained alpha beta lam
  match argFiles with
  | [] => .error .indexError
  | f :: _ => do
    let arg ← loadSpace L fs f
    let arg2 ← loadSecond L fs argFiles
    let content ← fs.read inFile
    let data ← readTriples content
    let s ← composeObj m data arg arg2
    let out := outDir ++ cs!"/COMPOSED_SS" ++ ['.'] ++ className m ++ ['.'] ++ lastComp inFile
    let fs1 ← fs.save (L.dump (.space s)) (out ++ cs!".pkl")
    exportOpt L fs1 s out outFormat

/-! ### The `main` functions -/

/-- A variable that holds a string or `None`. -/
def OptVal.asStr : OptVal → Option Str
  | .str s => some s
  | _ => Option.none

/-- A variable that holds a list or `None`. -/
def OptVal.asList : OptVal → Option (List Str)
  | .list l => some l
  | _ => Option.none

/-- A variable that holds a list of strings or `[None]` (`build_core_space.py:236-239`). -/
def OptVal.asTokens : OptVal → List (Option Str)
  | .list l => l.map some
  | _ => [Option.none]

/-- `assert_option_not_none` (`pipeline_utils.py:12-15`). -/
def require {α : Type} (x : Option α) : Main α :=
  match x with
  | some a => .ok a
  | none => .error (.exit 1)

/-- `assert_bool` (`pipeline_utils.py:7-10`) on an evaluated value. -/
def requireBool (x : Option Bool) : Main Bool := require x

/-- `assert_xor_options` (`pipeline_utils.py:17-20`). -/
def requireXor (a b : Option Str) : Main Unit :=
  if a.isSome ≠ b.isSome then .ok () else .error (.exit 1)

/-- The string value of a variable with a string default. -/
def OptVal.strD (v : OptVal) : Str := v.asStr.getD []

/-- `main` of `build_core_space.py` (lines 221-313). -/
def mainCore (L : Lib) (fs : Fs) (argv : List Str) : Main Fs := do
  let st ← cliCore.parseArgs L.parseCfg fs argv
  let fs1 ← Main.lift (configLogging fs (st cs!"log_file").asStr)
  let pre ← require (st cs!"in_file_prefix").asStr
  let outDir ← require (st cs!"out_dir").asStr
  let fmt ← require (st cs!"in_format").asStr
  let gz ← Main.lift (L.evalBool (st cs!"gz").strD)
  let gz ← requireBool gz
  Main.lift (buildSpaces L fs1 pre fmt outDir (st cs!"out_format").asStr (st cs!"weightings").asTokens
    (st cs!"selections").asTokens (st cs!"reductions").asTokens (st cs!"normalizations").asTokens gz)

/-- `main` of `build_peripheral_space.py` (lines 125-200). -/
def mainPeriph (L : Lib) (fs : Fs) (argv : List Str) : Main Fs := do
  let st ← cliPeriph.parseArgs L.parseCfg fs argv
  let fs1 ← Main.lift (configLogging fs (st cs!"log_file").asStr)
  let pre ← require (st cs!"in_file_prefix").asStr
  let outDir ← require (st cs!"out_dir").asStr
  let fmt ← require (st cs!"in_format").asStr
  let gz ← Main.lift (L.evalBool (st cs!"gz").strD)
  let gz ← requireBool gz
  match (st cs!"core_in_dir").asStr with
  | some d => Main.lift (buildPeriphBatch L fs1 pre fmt outDir (st cs!"out_format").asStr d (st cs!"core_filter").strD gz)
  | none => do
    let core ← require (st cs!"core_space_file").asStr
    Main.lift (buildPeriph L fs1 pre fmt outDir (st cs!"out_format").asStr core gz)

/-- `main` of `compute_similarities.py` (lines 131-201). -/
def mainSims (L : Lib) (fs : Fs) (argv : List Str) : Main Fs := do
  let st ← cliSims.parseArgs L.parseCfg fs argv
  let fs1 ← Main.lift (configLogging fs (st cs!"log_file").asStr)
  let inFile ← require (st cs!"in_file").asStr
  let outDir ← require (st cs!"out_dir").asStr
  let measures ← require (st cs!"sim_measures").asList
  let columns ← require (st cs!"columns").asList
  match (st cs!"in_dir").asStr with
  | some d => Main.lift (computeSimBatch L inFile columns outDir measures d fs1)
  | none => do
    let spaces ← require (st cs!"spaces").asList
    Main.lift (computeSim L inFile columns outDir measures spaces fs1)

/-- `main` of `compute_neighbours.py` (lines 93-156). -/
def mainNeigh (L : Lib) (fs : Fs) (argv : List Str) : Main Fs := do
  let st ← cliNeigh.parseArgs L.parseCfg fs argv
  let fs1 ← Main.lift (configLogging fs (st cs!"log_file").asStr)
  let n ← Main.lift (pyInt (st cs!"no_neighbours").strD)
  let inFile ← require (st cs!"in_file").asStr
  let outDir ← require (st cs!"out_dir").asStr
  let measure ← require (st cs!"sim_measure").asStr
  let spaces ← require (st cs!"spaces").asList
  Main.lift (computeNeighbours L inFile n outDir measure spaces fs1)

/-- `main` of `evaluate_similarities.py` (lines 95-161): what is printed, with the file name in batch mode. -/
def mainEval (L : Lib) (fs : Fs) (argv : List Str) : Main (List (Str × List (Str × ℝ))) := do
  let st ← cliEval.parseArgs L.parseCfg fs argv
  let fs1 ← Main.lift (configLogging fs (st cs!"log_file").asStr)
  let measures ← require (st cs!"corr_measures").asList
  let columns ← require (st cs!"columns").asList
  if columns.length ≠ 2 then .error (.raised .valueError)
  else match (st cs!"in_dir").asStr with
    | some d => Main.lift (evaluateSimBatch L fs1 d columns measures (st cs!"filter_").strD)
    | none => do
      let inFile ← require (st cs!"in_file").asStr
      let r ← Main.lift (evaluateSim L fs1 inFile columns measures)
      return [([], r)]

/-- `float(param)` for an optional string (`train_composition.py:227-228`, `apply_composition.py:187-192`). -/
def floatOpt (io : NumIO) (s : Option Str) : Py (Option ℝ) :=
  match s with
  | none => .ok none
  | some s => do
    let x ← pyFloat io s
    return some x

/-- `[float(param) for param in param_range]` (`train_composition.py:230`). -/
def floatList (io : NumIO) : List Str → Py (List ℝ)
  | [] => .ok []
  | s :: ss => do
    let x ← pyFloat io s
    let xs ← floatList io ss
    return x :: xs

/-- Lines 227-230 of `train_composition.py`: the values of `param` and `param_range` afterwards. In Python 2 the loop
variable of a list comprehension is a variable of the enclosing function, so `param` ends up as the last element of
`param_range`, a string. -/
def paramsOf (io : NumIO) (param : Option Str) (range : Option (List Str)) : Py (ParamVal × Option (List ℝ)) := do
  let p ← floatOpt io param
  let pv : ParamVal := match p with
    | none => .none
    | some x => .num x
  match range with
  | none => return (pv, none)
  | some l => do
    let xs ← floatList io l
    match l.getLast? with
    | none => return (pv, some xs)
    | some s => return (.text s, some xs)

/-- Lines 232-233 of `train_composition.py`. -/
def checkLambda (cv : Bool) (regression : Option Str) (param : ParamVal) : Main Unit :=
  match cv, param with
  | false, .none => if regression = some cs!"ridge" then .error (.exit 1) else .ok ()
  | _, _ => .ok ()

/-- `main` of `train_composition.py` (lines 132-236). -/
def mainTrain (L : Lib) (fs : Fs) (argv : List Str) : Main Fs := do
  let st ← cliTrain.parseArgs L.parseCfg fs argv
  let fs1 ← Main.lift (configLogging fs (st cs!"log_file").asStr)
  let inFile ← require (st cs!"in_file").asStr
  let outDir ← require (st cs!"out_dir").asStr
  let model ← require (st cs!"model").asStr
  let argFiles ← require (st cs!"arg_space").asList
  let phraseFile ← require (st cs!"phrase_space").asStr
  let cv ← Main.lift (L.evalBool (st cs!"crossvalidation").strD)
  let ic ← Main.lift (L.evalBool (st cs!"intercept").strD)
  let ic ← requireBool ic
  let cv ← requireBool cv
  let ex ← Main.lift (L.evalBool (st cs!"export_params").strD)
  let ex ← requireBool ex
  let (param, range) ← Main.lift (paramsOf L.io (st cs!"param").asStr (st cs!"param_range").asList)
  checkLambda cv (st cs!"regression").asStr param
  Main.lift (trainModel L fs1 inFile outDir model argFiles phraseFile (st cs!"regression").asStr cv ic param range ex)

/-- `main` of `apply_composition.py` (lines 110-195). -/
def mainApply (L : Lib) (fs : Fs) (argv : List Str) : Main Fs := do
  let st ← cliApply.parseArgs L.parseCfg fs argv
  let fs1 ← Main.lift (configLogging fs (st cs!"log_file").asStr)
  let inFile ← require (st cs!"in_file").asStr
  let outDir ← require (st cs!"out_dir").asStr
  requireXor (st cs!"model").asStr (st cs!"trained_model").asStr
  let argFiles ← require (st cs!"arg_space").asList
  let alpha ← Main.lift (floatOpt L.io (st cs!"alpha").asStr)
  let beta ← Main.lift (floatOpt L.io (st cs!"beta").asStr)
  let lam ← Main.lift (floatOpt L.io (st cs!"lambda_").asStr)
  Main.lift (applyModel L fs1 inFile outDir (st cs!"model").asStr (st cs!"trained_model").asStr argFiles alpha beta lam
    (st cs!"out_format").asStr)

end
end Dissect
