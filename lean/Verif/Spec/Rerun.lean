import Verif.Spec.Crash
import Verif.Lemmas.FsDirs

/-! # Specification: running an interrupted script again -/

namespace Dissect
noncomputable section

/-- Two disks with the same working directory, directories, files and contents. -/
structure SameDisk (g h : Fs) : Prop where
  cwd : g.cwd = h.cwd
  dirs : ∀ d, d ∈ g.dirs ↔ d ∈ h.dirs
  files : ∀ n, g.files.get? n = h.files.get? n

/-- Interrupting `run` on the disk `fs` at any moment and starting it again on the disk as it is then: whenever the
uninterrupted run succeeds, the second run succeeds, and leaves the same disk as the uninterrupted one. -/
def Restartable {ε : Type} (run : Fs → Run ε) (fs : Fs) : Prop :=
  ∀ fs' g, (run fs).out = .ok fs' → (run fs).seen g → ∃ g', (run g).out = .ok g' ∧ SameDisk g' fs'

/-- The path `f` is neither one of the files `O` nor a directory above one of them. -/
def Apart (fs : Fs) (O : List Str → Prop) (f : Str) : Prop := ∀ n, O n → ¬ fs.resolve f <+: n

/-- The files that describe the input space (usage texts of `build_core_space.py` and `build_peripheral_space.py`). -/
def inputFiles (pre fmt : Str) : List Str :=
  [pre ++ ['.'] ++ fmt, pre ++ ['.'] ++ fmt ++ cs!".gz", pre ++ cs!".rows", pre ++ cs!".cols"]

end
end Dissect
