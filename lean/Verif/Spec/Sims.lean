import Verif.Model.Pipeline
import Verif.Spec.Io
import Verif.Spec.Pipeline
import Verif.Spec.Training

/-!
# Specification: the files read and written by `compute_similarities.py` and `compute_neighbours.py`

Written from the usage texts (`compute_similarities.py:38-64`, `compute_neighbours.py:35-58`).
-/

namespace Dissect
noncomputable section

/-- The similarity measures by name. -/
def measureTable : List (Str × Sim) :=
  [(cs!"cos", .cos), (cs!"lin", .lin), (cs!"dot_prod", .dot), (cs!"euclidean", .euclid)]

/-- `s` is the name of the file `f` without directory and without its last extension (empty if it has none). -/
def IsStem (f s : Str) : Prop :=
  ∃ base, IsBase f base ∧ ((∃ ext, '.' ∉ ext ∧ base = s ++ '.' :: ext) ∨ ('.' ∉ base ∧ s = []))

/-- The spaces of `-s <file[,file2]>`: the second one only when exactly two files are given. -/
inductive SpacesFrom (L : Lib) (fs : Fs) : List Str → Space Str → Option (Space Str) → Prop
  | two {f g : Str} {s t : Space Str} : HoldsSpace L fs f s → HoldsSpace L fs g t → SpacesFrom L fs [f, g] s (some t)
  | one {f : Str} {gs : List Str} {s : Space Str} : HoldsSpace L fs f s → gs.length ≠ 1 → SpacesFrom L fs (f :: gs) s none

/-- The part of the output name that describes the spaces. -/
inductive SpacesName : List Str → Str → Prop
  | one {f s : Str} {gs : List Str} : gs.length ≠ 1 → IsStem f s → SpacesName (f :: gs) s
  | two {f g s t ext base : Str} : IsStem f s → IsBase g base → '.' ∉ ext → base = t ++ '.' :: ext →
      SpacesName [f, g] (s ++ '.' :: t)
  | twoBare {f g s base : Str} : IsStem f s → IsBase g base → '.' ∉ base → SpacesName [f, g] s

/-- A non-blank input line and what is written for it: the line, a blank, the similarity of the words in the columns `i`
and `j` (counted from 0), and a line end. -/
def SimLine (L : Lib) (s : Space Str) (s2 : Option (Space Str)) (sim : Sim) (i j : ℕ) (line out : Str) : Prop :=
  ∃ w1 w2 x, (split line)[i]? = some w1 ∧ (split line)[j]? = some w2 ∧ s.getSim w1 w2 sim s2 = .ok x ∧
    out = line ++ ' ' :: L.strNum x ++ ['\n']

/-- The non-blank lines of a file without surrounding white space. -/
def textLines (content : Str) : List Str := ((fileLines content).map strip).filter (fun l => decide (l ≠ []))

/-- `out` is what has to be written for the input `content`: one line for each non-blank line, in order. -/
def SimFile (L : Lib) (s : Space Str) (s2 : Option (Space Str)) (sim : Sim) (i j : ℕ) (content out : Str) : Prop :=
  ∃ ls, List.Forall₂ (SimLine L s s2 sim i j) (textLines content) ls ∧ out = ls.flatten

/-- The name of the output of `compute_similarities.py`. -/
def simsFile (outDir base descr measure : Str) : Str :=
  outDir ++ cs!"/SIMS." ++ base ++ ['.'] ++ descr ++ ['.'] ++ measure

/-- A word and what `compute_neighbours.py` writes for it: the word, then one line for each neighbour. -/
def NeighbourBlock (L : Lib) (s : Space Str) (s2 : Option (Space Str)) (sim : Sim) (n : ℤ) (word out : Str) : Prop :=
  ∃ ns, s.getNeighbours word n sim s2 = .ok ns ∧
    out = word ++ '\n' :: (ns.map (fun p => '\t' :: p.1 ++ ' ' :: L.strNum p.2 ++ ['\n'])).flatten

/-- The name of the output of `compute_neighbours.py`. -/
def neighboursFile (outDir base descr measure : Str) : Str :=
  outDir ++ cs!"/NEIGHBOURS." ++ base ++ ['.'] ++ descr ++ ['.'] ++ measure

/-- The name of a file: neither empty nor `.`. -/
def IsFileName (base : Str) : Prop := base ≠ [] ∧ base ≠ ['.']

/-- Names in a file system contain no slash. -/
def Fs.NamesOk (fs : Fs) : Prop := ∀ p ∈ fs.dirs ++ fs.files.keys, ∀ c ∈ p, '/' ∉ c

end
end Dissect
