import Verif.Model.Space
import Verif.Model.Csr
import Verif.Model.Fs

/-! # `utils/io_utils.py`, `Space.build` and `Space.export` -/

namespace Dissect
noncomputable section

/-- `for line in f: if line.strip() != ""` with `line.strip().split()`: the token lists of the non-blank lines
(`io_utils.py:68-70, 162-164, 223-225`). -/
def tokenLines (content : Str) : List (List Str) :=
  ((fileLines content).filter (fun l => decide (strip l ≠ []))).map (fun l => split (strip l))

/-- Per-field state of `extract_indexing_structs` (`io_utils.py:54-60`): `str2id`, `id2str`, `index`. -/
structure IdxSt where
  d : Dict Str ℤ
  l : List Str
  n : ℕ

/-- Body of the field loop (`io_utils.py:75-79`). -/
def IdxSt.step (st : IdxSt) (w : Str) : IdxSt :=
  if st.d.contains w then st else ⟨st.d.set w (st.n : ℤ), st.l ++ [w], st.n + 1⟩

/-- `max(field_list)` (`io_utils.py:61`). -/
def maxField : List ℕ → Py ℕ
  | [] => .error .valueError
  | f :: fs => .ok (fs.foldl max f)

/-- The field loop of one valid line (`io_utils.py:74-79`). -/
def idxLine (fields : List ℕ) (toks : List Str) (sts : List IdxSt) : List IdxSt :=
  List.zipWith (fun f st => match toks[f]? with
    | some w => IdxSt.step st w
    | none => st) fields sts

/-- The line loop (`io_utils.py:68-79`): lines with too few fields are skipped. -/
def idxLoop (fields : List ℕ) (mx : ℕ) : List (List Str) → List IdxSt → List IdxSt
  | [], sts => sts
  | toks :: ls, sts =>
    if toks.length ≤ mx then idxLoop fields mx ls sts else idxLoop fields mx ls (idxLine fields toks sts)

/-- `extract_indexing_structs` (`io_utils.py:53-84`) on the content of the file: the pairs `(id2str, str2id)`.
Simplification: field numbers are natural numbers (the callers pass `[0]`). -/
def extractIndexing (content : Str) (fields : List ℕ) : Py (List (List Str × Dict Str ℤ)) := do
  let mx ← maxField fields
  let sts := idxLoop fields mx (tokenLines content) (fields.map (fun _ => ⟨Dict.empty, [], 0⟩))
  if sts.any (fun st => decide (st.l = [])) then .error .valueError
  else .ok (sts.map (fun st => (st.l, st.d)))

/-- `[id2row], [row2id] = extract_indexing_structs(file, [0])` (`space.py:518-532`). -/
def extractFirst (content : Str) : Py (List Str × Dict Str ℤ) := do
  match ← extractIndexing content [0] with
  | [x] => .ok x
  | _ => .error .valueError

/-- State of the loop of `read_sparse_space_data` (`io_utils.py:144-161`): the pre-allocated arrays and the fill
position. -/
structure SparseSt where
  row : List ℤ
  col : List ℤ
  data : List ℝ
  i : ℕ

/-- One line of the loop (`io_utils.py:164-178`). -/
def sparseLine (io : NumIO) (row2id col2id : Dict Str ℤ) (toks : List Str) (st : SparseSt) : Py SparseSt :=
  match toks with
  | w1 :: w2 :: count :: _ =>
    match row2id.get? w1, col2id.get? w2 with
    | some r, some c => match io.parse count with
      | some x => .ok ⟨st.row.set st.i r, st.col.set st.i c, st.data.set st.i x, st.i + 1⟩
      | none => .error .valueError
    | _, _ => .ok st
  | _ => .error .valueError

/-- The loop (`io_utils.py:162-178`). -/
def sparseLoop (io : NumIO) (row2id col2id : Dict Str ℤ) : List (List Str) → SparseSt → Py SparseSt
  | [], st => .ok st
  | toks :: ls, st => do
    let st' ← sparseLine io row2id col2id toks st
    sparseLoop io row2id col2id ls st'

/-- `csr_matrix((data, (row, col)), shape=(nr, nc))` (scipy): coordinates outside the shape raise `ValueError`, repeated
cells are added. -/
def csrOfCoords (nr nc : ℕ) (row col : List ℤ) (data : List ℝ) : Py (Mat ℝ) :=
  if (row.all (fun r => decide (0 ≤ r ∧ r < nr))) && (col.all (fun c => decide (0 ≤ c ∧ c < nc))) then
    .ok (Coo.toMat ⟨nr, nc, (row.zip (col.zip data)).map (fun e => (e.1.toNat, e.2.1.toNat, e.2.2))⟩)
  else .error .valueError

/-- `read_sparse_space_data` (`io_utils.py:134-190`) on the content of the file, without `dtype`. The warning about
duplicates is dropped. -/
def readSparse (io : NumIO) (content : Str) (row2id col2id : Dict Str ℤ) : Py (TMat ℝ) := do
  let noLines := ((fileLines content).filter (fun l => decide (strip l ≠ []))).length
  let st ← sparseLoop io row2id col2id (tokenLines content)
    ⟨List.replicate noLines 0, List.replicate noLines 0, List.replicate noLines 0, 0⟩
  let m ← csrOfCoords row2id.len col2id.len (st.row.take st.i) (st.col.take st.i) (st.data.take st.i)
  TMat.wrap .sparse m

/-- `m[i, :] = values` for a list of as many values as columns. -/
def Mat.setRow (A : Mat ℝ) (i : ℕ) (v : List ℝ) : Mat ℝ :=
  Mat.of A.nr A.nc (fun a b => if a = i then v.getD b 0 else A.get a b)

/-- Conversion of the list of strings in `m[i, :] = elements[1:]` (`io_utils.py:235`). -/
def parseAll (io : NumIO) : List Str → Py (List ℝ)
  | [] => .ok []
  | s :: ss => match io.parse s with
    | none => .error .valueError
    | some x => do
      let xs ← parseAll io ss
      return x :: xs

/-- One line of `read_dense_space_data` (`io_utils.py:225-236`): the matrix and `row_string_set`. -/
def denseLine (io : NumIO) (row2id : Dict Str ℤ) (noCols : ℕ) (toks : List Str) (m : Mat ℝ) (seen : List Str) :
    Py (Mat ℝ × List Str) :=
  if toks.length ≠ noCols + 1 then .error .valueError
  else match toks with
    | [] => .error .indexError
    | word :: elements => match row2id.get? word with
      | none => .ok (m, seen)
      | some i =>
        if word ∈ seen then .ok (m, seen)
        else match pyIdx m.nr i with
          | none => .error .indexError
          | some k => do
            let v ← parseAll io elements
            return (m.setRow k v, word :: seen)

/-- The loop (`io_utils.py:223-236`). -/
def denseLoop (io : NumIO) (row2id : Dict Str ℤ) (noCols : ℕ) :
    List (List Str) → Mat ℝ → List Str → Py (Mat ℝ × List Str)
  | [], m, seen => .ok (m, seen)
  | toks :: ls, m, seen => do
    let st ← denseLine io row2id noCols toks m seen
    denseLoop io row2id noCols ls st.1 st.2

/-- `read_dense_space_data` (`io_utils.py:193-240`) on the content of the file, without `dtype`. `f.next()` raises
`StopIteration` on an empty file. -/
def readDense (io : NumIO) (content : Str) (row2id : Dict Str ℤ) : Py (TMat ℝ) :=
  match fileLines content with
  | [] => .error .stopIteration
  | first :: _ =>
    let noCols := (split (strip first)).length - 1
    if noCols = 0 then .error .valueError
    else do
      let st ← denseLoop io row2id noCols (tokenLines content) (Mat.of row2id.len noCols (fun _ _ => 0)) []
      TMat.ofNumpy .dense st.1

/-- `print_list` (`io_utils.py:243-246`): the text written. -/
def printList (l : List Str) : Str := (l.map (fun w => w ++ ['\n'])).flatten

/-- `"%s\t%s\t%f\n" % (row, col, value)` (`io_utils.py:271, 276`). -/
def sparseRecord (io : NumIO) (row col : Str) (x : ℝ) : Str :=
  row ++ ['\t'] ++ col ++ ['\t'] ++ io.fmtF x ++ ['\n']

/-- State of the CSR writer (`io_utils.py:262-264`): `row_index`, `next_row`, `row`. -/
structure WriterSt where
  rowIndex : ℕ
  nextRow : ℕ
  row : Str

/-- `while i == next_row: ...` (`io_utils.py:266-269`); reading past `indptr` or `id2row` raises `IndexError`. -/
def writerAdvance (indptr : List ℕ) (id2row : List Str) (i : ℕ) (st : WriterSt) : Py WriterSt :=
  if i = st.nextRow then
    match h : indptr[st.rowIndex + 1 + 1]?, id2row[st.rowIndex + 1]? with
    | some nxt, some r => writerAdvance indptr id2row i ⟨st.rowIndex + 1, nxt, r⟩
    | _, _ => .error .indexError
  else .ok st
termination_by indptr.length - st.rowIndex
decreasing_by
  have := (List.getElem?_eq_some_iff.1 h).1
  omega

/-- The loop over the stored entries (`io_utils.py:265-271`): `i` is the position of the first entry of the list. -/
def writerLoop (io : NumIO) (indptr : List ℕ) (id2row id2col : List Str) :
    List (ℕ × ℝ) → ℕ → WriterSt → Py Str
  | [], _, _ => .ok []
  | (j, x) :: es, i, st => do
    let st' ← writerAdvance indptr id2row i st
    match id2col[j]? with
    | none => .error .indexError
    | some col => do
      let rest ← writerLoop io indptr id2row id2col es (i + 1) st'
      return sparseRecord io st'.row col x ++ rest

/-- The `SparseMatrix` branch of `print_cooc_mat_sparse_format` (`io_utils.py:256-271`): the text written. -/
def printCsr (io : NumIO) (c : Csr ℝ) (id2row id2col : List Str) : Py Str :=
  match c.indptr[1]?, id2row[0]? with
  | some nxt, some r => writerLoop io c.indptr id2row id2col c.stored 0 ⟨0, nxt, r⟩
  | _, _ => .error .indexError

/-- One row of the dense branch (`io_utils.py:274-276`); the label of a non-zero cell is looked up. -/
def printDenseRow (io : NumIO) (A : Mat ℝ) (id2row id2col : List Str) (i : ℕ) : List ℕ → Py Str
  | [] => .ok []
  | j :: js =>
    if A.get i j ≠ 0 then
      match id2row[i]?, id2col[j]? with
      | some r, some c => do
        let rest ← printDenseRow io A id2row id2col i js
        return sparseRecord io r c (A.get i j) ++ rest
      | _, _ => .error .indexError
    else printDenseRow io A id2row id2col i js

/-- The dense branch of `print_cooc_mat_sparse_format` (`io_utils.py:273-276`). -/
def printDenseSm (io : NumIO) (A : Mat ℝ) (id2row id2col : List Str) : List ℕ → Py Str
  | [] => .ok []
  | i :: is => do
    let a ← printDenseRow io A id2row id2col i (List.range A.nc)
    let rest ← printDenseSm io A id2row id2col is
    return a ++ rest

/-- `print_cooc_mat_sparse_format` (`io_utils.py:249-276`): the text written. `store` are the arrays of the matrix when
it is a `SparseMatrix`. -/
def printSm (io : NumIO) (m : TMat ℝ) (store : Csr ℝ) (id2row id2col : List Str) : Py Str :=
  if id2col = [] then .error .valueError
  else match m.ty with
    | .sparse => printCsr io store id2row id2col
    | .dense => printDenseSm io m.val id2row id2col (List.range m.nr)

/-- `[repr(v[j]) for j in range(len(v))]` for the flattened row (`io_utils.py:284-285`). -/
def reprRow (io : NumIO) (v : TMat ℝ) : List Str := (List.range v.nc).map (fun j => io.repr (v.val.get 0 j))

/-- `print_cooc_mat_dense_format` (`io_utils.py:279-286`): the text written; `i` is the number of the next row. -/
def printDm (io : NumIO) (m : TMat ℝ) : List Str → ℕ → Py Str
  | [], _ => .ok []
  | w :: ws, i => do
    let r ← m.getRow (i : ℤ)
    let v ← r.toDense
    let rest ← printDm io m ws (i + 1)
    return joinStr ['\t'] (w :: reprRow io v) ++ ['\n'] ++ rest

/-- The keyword arguments of `Space.build` (`space.py:476`); `none` stands for an absent argument, and for `None` in the
case of `rows` and `cols`. -/
structure BuildArgs where
  data : Option Str
  format : Option Str
  rows : Option Str
  cols : Option Str

/-- `"dm"` and `"sm"` (`space.py:511`). -/
def fmtDm : Str := ['d', 'm']
/-- `"sm"` (`space.py:511`). -/
def fmtSm : Str := ['s', 'm']

/-- Reading the optional row file (`space.py:516-517`). -/
def buildRows (fs : Fs) (rows : Option Str) : Py (Option (List Str × Dict Str ℤ)) :=
  match rows with
  | none => .ok none
  | some f => do
    let c ← fs.read f
    let x ← extractFirst c
    return some x

/-- Reading the optional column file (`space.py:519-522`). -/
def buildCols (fs : Fs) (fmt : Str) (cols : Option Str) : Py (Option (List Str × Dict Str ℤ)) :=
  match cols with
  | some f => do
    let c ← fs.read f
    let x ← extractFirst c
    return some x
  | none => if fmt = fmtSm then .error .valueError else .ok none

/-- Rows taken from the data file when no row file is given (`space.py:525-526, 530-531`). -/
def rowsOrData (fs : Fs) (data : Str) (r : Option (List Str × Dict Str ℤ)) : Py (List Str × Dict Str ℤ) :=
  match r with
  | some x => .ok x
  | none => do
    let c ← fs.read data
    extractFirst c

/-- Reading the matrix (`space.py:527, 532`). -/
def buildMat (io : NumIO) (fs : Fs) (fmt data : Str) (row2id : Dict Str ℤ) (col2id : Dict Str ℤ) : Py (TMat ℝ) := do
  let c ← fs.read data
  if fmt = fmtSm then readSparse io c row2id col2id else readDense io c row2id

/-- The check `if id2column and len(id2column) != mat.shape[1]` (`space.py:534-535`). -/
def checkCols (id2col : List Str) (m : TMat ℝ) : Py Unit :=
  if id2col ≠ [] ∧ id2col.length ≠ m.nc then .error .valueError else .ok ()

/-- `Space.build` after the argument checks (`space.py:516-542`). -/
def buildWith (io : NumIO) (fs : Fs) (data fmt : Str) (rows cols : Option Str) : Py (Space Str) := do
  let r ← buildRows fs rows
  let c ← buildCols fs fmt cols
  let (id2row, row2id) ← rowsOrData fs data r
  let (id2col, col2id) := c.getD ([], Dict.empty)
  let m ← buildMat io fs fmt data row2id col2id
  checkCols id2col m
  Space.new m id2row id2col (some row2id) (some col2id) [] none

/-- `Space.build` (`space.py:475-542`). -/
def Space.build (io : NumIO) (fs : Fs) (a : BuildArgs) : Py (Space Str) :=
  match a.data with
  | none => .error .valueError
  | some data => match a.format with
    | none => .error .valueError
    | some fmt =>
      if fmt = fmtDm ∨ fmt = fmtSm then buildWith io fs data fmt a.rows a.cols else .error .valueError

/-- `PeripheralSpace.build` (`peripheral_space.py:125-156`): a space is built from the files, and its matrix and row
structures are given to the constructor; its column structures are dropped. -/
def Periph.build (io : NumIO) (fs : Fs) (core : Space Str) (a : BuildArgs) : Py (Space Str) := do
  let sp ← Space.build io fs a
  Periph.new core sp.mat sp.id2row (some sp.row2id)

/-- `"%s.%s" % (file_prefix, ext)`. -/
def withExt (pre ext : Str) : Str := pre ++ ['.'] ++ ext

/-- The column part of `_export_row_column` (`space.py:591-592`). -/
def exportCols (fs : Fs) (s : Space Str) (pre : Str) : Py Fs :=
  if s.col2id.len ≠ 0 then fs.write (withExt pre ['c', 'o', 'l', 's']) (printList s.id2col) else .ok fs

/-- `_export_row_column` (`space.py:587-594`). -/
def exportRowColumn (fs : Fs) (s : Space Str) (pre : Str) : Py Fs := do
  let fs1 ← exportCols fs s pre
  fs1.write (withExt pre ['r', 'o', 'w', 's']) (printList s.id2row)

/-- The matrix part of `export` (`space.py:569-580`): nothing is written when `format` is not given. -/
def exportMatrix (io : NumIO) (fs : Fs) (s : Space Str) (store : Csr ℝ) (pre : Str) (format : Option Str) : Py Fs :=
  match format with
  | none => .ok fs
  | some f =>
    if f = fmtDm then fs.writeText (withExt pre fmtDm) (printDm io s.mat s.id2row 0)
    else if f = fmtSm then
      if s.id2col = [] then .error .valueError
      else fs.writeText (withExt pre fmtSm) (printSm io s.mat store s.id2row s.id2col)
    else .error .valueError

/-- `Space.export` (`space.py:544-585`). `store` are the arrays of the matrix when it is sparse. Simplification: when an
exception is raised the partially written files are not described. -/
def Space.export (io : NumIO) (fs : Fs) (s : Space Str) (store : Csr ℝ) (pre : Str) (format : Option Str) : Py Fs := do
  let fs1 ← fs.createParentDirectories pre
  let fs2 ← exportMatrix io fs1 s store pre format
  exportRowColumn fs2 s pre

end
end Dissect
