import Verif.Model.Text

/-!
# The file system seen through `os`, `os.path` and `open`

Simplifications: one process; no permissions, symbolic links or `..` components; a `.gz` file is represented by its
uncompressed content; a slash at the end of the name of a regular file is ignored (the system refuses such a path).
-/

namespace Dissect

/-- Working directory, existing directories and regular files, addressed by their components from the root. -/
structure Fs where
  cwd : List Str
  dirs : List (List Str)
  files : Dict (List Str) Str

/-- `p.split('/')` (Python builtin); `cur` is the component being read. -/
def splitSlashAux (cur : Str) : Str → List Str
  | [] => [cur]
  | c :: cs => if c = '/' then cur :: splitSlashAux [] cs else splitSlashAux (cur ++ [c]) cs

/-- The components the kernel walks through for a path: empty components and `.` do nothing. -/
def pathComps (p : Str) : List Str :=
  (splitSlashAux [] p).filter (fun c => decide (c ≠ [] ∧ c ≠ ['.']))

/-- Is the path absolute? -/
def isAbs (p : Str) : Bool := p.head? = some '/'

/-- `posixpath.split(p)` (Python standard library): `i = p.rfind('/') + 1; head, tail = p[:i], p[i:]`; trailing slashes
of the head are removed unless it consists of slashes only. -/
def pathSplit (p : Str) : Str × Str :=
  let tail := (p.reverse.takeWhile (fun c => decide (c ≠ '/'))).reverse
  let head := (p.reverse.dropWhile (fun c => decide (c ≠ '/'))).reverse
  if head.all (fun c => decide (c = '/')) then (head, tail)
  else ((head.reverse.dropWhile (fun c => decide (c = '/'))).reverse, tail)

/-- `os.path.dirname(p)` (Python standard library). -/
def dirname (p : Str) : Str := (pathSplit p).1

namespace Fs

/-- The node named by a path. -/
def resolve (fs : Fs) (p : Str) : List Str := if isAbs p then pathComps p else fs.cwd ++ pathComps p

/-- `os.path.exists(p)`: `stat("")` fails. -/
def exists_ (fs : Fs) (p : Str) : Bool :=
  decide (p ≠ [] ∧ (fs.resolve p ∈ fs.dirs ∨ fs.files.contains (fs.resolve p) = true))

/-- `os.mkdir(p)`: `OSError` for `""`, an existing node, or a missing parent directory. -/
def mkdir (fs : Fs) (p : Str) : Py Fs :=
  if p = [] ∨ fs.exists_ p = true ∨ (fs.resolve p).dropLast ∉ fs.dirs then .error .osError
  else .ok { fs with dirs := fs.resolve p :: fs.dirs }

end Fs

theorem length_dropWhile_le' {α : Type} (p : α → Bool) (l : List α) : (l.dropWhile p).length ≤ l.length := by
  induction l with
  | nil => simp
  | cons a l ih =>
    rw [List.dropWhile_cons]
    split
    · exact le_trans ih (by simp)
    · exact le_rfl

theorem pathSplit_fst_length (p : Str) : (pathSplit p).1.length + (pathSplit p).2.length ≤ p.length := by
  have h : (p.reverse.takeWhile (fun c => decide (c ≠ '/'))).length
      + (p.reverse.dropWhile (fun c => decide (c ≠ '/'))).length = p.length := by
    rw [← List.length_append, List.takeWhile_append_dropWhile, List.length_reverse]
  unfold pathSplit
  simp only []
  split
  · simp only [List.length_reverse]; omega
  · simp only [List.length_reverse, List.reverse_reverse]
    have := length_dropWhile_le' (fun c => decide (c = '/'))
      (p.reverse.dropWhile (fun c => decide (c ≠ '/')))
    omega

namespace Fs

/-- The pair `(head, tail)` computed by `os.makedirs` (Python 2.7 `os.py`): a second split when the name ends in a
slash. -/
def makedirsSplit (name : Str) : Str × Str :=
  let ht := pathSplit name
  if ht.2 = [] then pathSplit ht.1 else ht

theorem makedirsSplit_lt (name : Str) (h1 : (makedirsSplit name).2 ≠ []) :
    (makedirsSplit name).1.length < name.length := by
  unfold makedirsSplit at *
  simp only [] at *
  have a := pathSplit_fst_length name
  split at h1
  · rename_i h
    rw [if_pos h]
    have b := pathSplit_fst_length (pathSplit name).1
    have : 0 < (pathSplit (pathSplit name).1).2.length := List.length_pos_iff.2 h1
    omega
  · rename_i h
    rw [if_neg h]
    have : 0 < (pathSplit name).2.length := List.length_pos_iff.2 h
    omega

/-- `os.makedirs(name)` (Python 2.7 `os.py`). Simplification: the `EEXIST` of a concurrently created directory is not
modelled (the parent is only created when it does not exist). -/
def makedirs (fs : Fs) (name : Str) : Py Fs :=
  if h : (makedirsSplit name).1 ≠ [] ∧ (makedirsSplit name).2 ≠ [] ∧
      fs.exists_ (makedirsSplit name).1 = false then
    match makedirs fs (makedirsSplit name).1 with
    | .error e => .error e
    | .ok fs' => if (makedirsSplit name).2 = ['.'] then .ok fs' else fs'.mkdir name
  else fs.mkdir name
termination_by name.length
decreasing_by exact makedirsSplit_lt name h.2.1

/-- `open(p, 'w')` followed by writing `content` and closing: `IOError` when the path is empty or ends in a slash, when
the parent directory is missing or when the path is a directory. -/
def write (fs : Fs) (p content : Str) : Py Fs :=
  if p = [] ∨ p.getLast? = some '/' ∨ fs.resolve p ∈ fs.dirs ∨ (fs.resolve p).dropLast ∉ fs.dirs then .error .ioError
  else .ok { fs with files := fs.files.set (fs.resolve p) content }

/-- `with open(p, 'w') as f:` around the statements that compute and write the text, as in the `print_cooc_mat_*`
functions (`io_utils.py:249-287`): the file is opened first; `txt` is the complete text, or the exception raised while it
is computed. -/
def writeText (fs : Fs) (p : Str) (txt : Py Str) : Py Fs :=
  match fs.write p [] with
  | .error e => .error e
  | .ok _ => txt.bind (fs.write p)

/-- `open(p).read()`: `IOError` when there is no such file. -/
def read (fs : Fs) (p : Str) : Py Str :=
  if p = [] then .error .ioError else
  match fs.files.get? (fs.resolve p) with
  | some s => .ok s
  | none => .error .ioError

/-- `create_directories` (`utils/io_utils.py:41-43`). -/
def createDirectories (fs : Fs) (d : Str) : Py Fs :=
  if fs.exists_ d then .ok fs else fs.makedirs d

/-- `create_parent_directories` (`utils/io_utils.py:46-50`). -/
def createParentDirectories (fs : Fs) (fileName : Str) : Py Fs :=
  if fs.exists_ (dirname fileName) then .ok fs else fs.makedirs (dirname fileName)

/-- `save` (`utils/io_utils.py:20-28`); `pickled` is what `pickle.dump` writes. Simplification: the protocol-0 fallback
for oversized objects writes another representation of the same object. -/
def save (fs : Fs) (pickled fileName : Str) : Py Fs := do
  let fs1 ← fs.createParentDirectories fileName
  fs1.write fileName pickled

/-- `load` (`utils/io_utils.py:31-38`): `undump` is `pickle.load` (`none`: not a pickle), `isType` the
`assert_is_instance` test, `none` when no `data_type` is given. -/
def load {α : Type} (undump : Str → Option α) (isType : Option (α → Bool)) (fs : Fs) (fileName : Str) : Py α := do
  let txt ← fs.read fileName
  match undump txt with
  | none => .error .valueError
  | some x => match isType with
    | none => .ok x
    | some p => if p x then .ok x else .error .typeError

end Fs
end Dissect
