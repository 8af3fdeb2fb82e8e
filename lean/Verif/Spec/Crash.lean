import Verif.Spec.Pipeline
import Verif.Model.Crash

/-!
# Specification: what an interrupted script may have done to the disk
-/

namespace Dissect
noncomputable section

/-- The disk `g` compared with the disk `fs` from which a script started: the working directory is the same, no directory
has disappeared, and, with the exception of at most one file, which has to be one of the outputs, every file is as before
or has been written completely. -/
structure OneBroken (fs g : Fs) (Complete : List Str → Str → Prop) (Output : List Str → Prop) : Prop where
  cwd : g.cwd = fs.cwd
  dirs : ∀ d ∈ fs.dirs, d ∈ g.dirs
  files : ∃ q, ∀ n, g.files.get? n = fs.files.get? n ∨ (∃ c, Complete n c ∧ g.files.get? n = some c) ∨ (n = q ∧ Output n)

/-- The same without an exception: what a script leaves behind when it returns. -/
structure NoneBroken (fs g : Fs) (Complete : List Str → Str → Prop) : Prop where
  cwd : g.cwd = fs.cwd
  dirs : ∀ d ∈ fs.dirs, d ∈ g.dirs
  files : ∀ n, g.files.get? n = fs.files.get? n ∨ ∃ c, Complete n c ∧ g.files.get? n = some c

/-- `c` is the complete text of one of the files that represent the space `s`: the pickle, the list of rows or columns, or
the matrix in one of the two formats. -/
inductive SpaceText (L : Lib) (s : Space Str) : Str → Str → Prop
  | pkl : SpaceText L s cs!"pkl" (L.dump (.space s))
  | rows : SpaceText L s cs!"rows" (printList s.id2row)
  | cols : SpaceText L s cs!"cols" (printList s.id2col)
  | dm {c : Str} : printDm L.io s.mat s.id2row 0 = .ok c → SpaceText L s cs!"dm" c
  | sm {c : Str} : printSm L.io s.mat (L.csr s.mat) s.id2row s.id2col = .ok c → SpaceText L s cs!"sm" c

/-- The file `n` is one of those named `f.pkl`, `f.dm`, `f.sm`, `f.rows`, `f.cols`. -/
def FileOf (fs : Fs) (f : Str) (n : List Str) : Prop := ∃ e ∈ outExts, n = fs.resolve (f ++ ['.'] ++ e)

/-- The file `n` is one of those of `f`, and `c` is the complete text it has to have to represent `s`. -/
def CompleteFile (L : Lib) (fs : Fs) (f : Str) (s : Space Str) (n : List Str) (c : Str) : Prop :=
  ∃ e, n = fs.resolve (f ++ ['.'] ++ e) ∧ SpaceText L s e c

/-- The exit status of the process: Python turns an uncaught exception into status 1. -/
def MainErr.status : MainErr → ℕ
  | .exit n => n
  | .raised _ => 1

/-- The script ends with exit status `n`, and at no moment of the run is the content of any file other than the log
different from what it was (or a file other than the log created or removed). -/
structure EndsWith (fs : Fs) (log : Option Str) (n : ℕ) (r : Run MainErr) : Prop where
  status : ∃ e, r.out = .error e ∧ e.status = n
  files : ∀ g, r.seen g → ∀ p, (∀ f, log = some f → fs.resolve p ≠ fs.resolve f) → g.read p = fs.read p

end
end Dissect
