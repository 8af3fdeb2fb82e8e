import Verif.Lemmas.Ideal
import Verif.Lemmas.Decimal
import Verif.Props.SimsTotal
import Verif.Props.BadLines

/-! # A concrete library, space and file system for the examples on the scripts -/

namespace Dissect
noncomputable section
namespace Examples

open Classical in
/-- What the scripts take from Python: ideal numeric routines, numbers with six decimals, pickles of the space `s` (`S`) and
of one more object `m` (`M`; every other object is pickled to a text that cannot be read back), directories listed in
order, `True` and `False`, `ConfigParser` of a file without settings, correlations that are 1. -/
def demoLib (s : Space Str) (m : PyObj) : Lib where
  env := idealEnv
  io := decIO
  dump o := if o = .space s then cs!"S" else if o = m then cs!"M" else cs!"X"
  undump t := if t = cs!"S" then some (.space s) else if t = cs!"M" then some m else none
  strNum := fmtDec
  strMat _ := cs!"[]"
  csr A := ⟨A.nr, A.nc, [], [], List.replicate (A.nr + 1) 0⟩
  chance _ _ _ := ⟨fun _ => [0], fun _ => [0], fun _ => false⟩
  evalBool t := if t = cs!"True" then .ok (some true) else if t = cs!"False" then .ok (some false) else .error .valueError
  parseCfg _ := .ok (fun _ _ => none)
  stats := ⟨fun _ _ => .ok 1, fun _ _ => .ok 1⟩
  dirOrder l := l

/-- `dog` = (0, 2, 4), `cat` = (1, 3, 5). -/
def zoo : Space Str where
  mat := exMat .dense
  id2row := [cs!"dog", cs!"cat"]
  id2col := [cs!"a", cs!"b", cs!"c"]
  row2id := ⟨[(cs!"dog", 0), (cs!"cat", 1)], by simp⟩
  col2id := ⟨[(cs!"a", 0), (cs!"b", 1), (cs!"c", 2)], by simp⟩
  ops := []
  elemShape := [3]

theorem zoo_new : Space.new (exMat .dense) [cs!"dog", cs!"cat"] [cs!"a", cs!"b", cs!"c"] none none [] none = .ok zoo := rfl

theorem zoo_wf : zoo.WF := (C01_result _ _ _ _ _ _ _ _ zoo_new).1

/-- A model that needs no training. -/
def sumModel : PyObj := .composer ⟨.weighted 1 2, none⟩

/-- The library with the space and the model of the examples. -/
def demo : Lib := demoLib zoo sumModel

theorem demo_undump_S : demo.undump cs!"S" = some (.space zoo) := by
  simp [demo, demoLib]

theorem demo_undump_M : demo.undump cs!"M" = some sumModel := by
  simp [demo, demoLib]

theorem demo_undump_X : demo.undump cs!"X" = none := by
  simp [demo, demoLib]

theorem demo_true : demo.evalBool cs!"True" = .ok (some true) := by
  simp [demo, demoLib]

theorem demo_false : demo.evalBool cs!"False" = .ok (some false) := by
  simp [demo, demoLib]

/-- The files: a pickled space, a pickled model, and texts. -/
def demoFiles : List (List Str × Str) :=
  [([cs!"data", cs!"in.pkl"], cs!"S"), ([cs!"data", cs!"m.pkl"], cs!"M"),
    ([cs!"data", cs!"pairs.txt"], cs!"1 dog cat\n\n  0 cat unicorn \n"),
    ([cs!"data", cs!"bad.txt"], cs!"1 dog cat\n0 cat\nx dog dog\n"),
    ([cs!"data", cs!"words.txt"], cs!"cat\n dog \n"),
    ([cs!"data", cs!"tr.txt"], cs!"dog cat dog\n\ncat dog cat\n"),
    ([cs!"sims", cs!"gold.txt"], cs!"1 dog 2\n0 cat 1\n"),
    ([cs!"cores", cs!"in.pkl"], cs!"S"), ([cs!"cores", cs!"read.me"], cs!"X")]

/-- The directories. -/
def demoDirs : List (List Str) := [[], [cs!"home"], [cs!"data"], [cs!"sims"], [cs!"cores"], [cs!"empty"], [cs!"out"]]

/-- The file system of the examples. -/
def demoFs : Fs := ⟨[cs!"home"], demoDirs, ⟨demoFiles, by decide⟩⟩

theorem demoFs_keys : demoFs.files.keys = demoFiles.map Prod.fst := rfl
theorem demoFs_dirs : demoFs.dirs = demoDirs := rfl

theorem demoFs_ok : demoFs.Ok := by
  refine ⟨by rw [demoFs_dirs]; decide, by rw [demoFs_dirs]; decide, ?_, ?_, ?_⟩
  · rw [demoFs_dirs]; decide
  · rw [demoFs_keys, demoFs_dirs]; decide
  · rw [demoFs_keys, demoFs_dirs]; decide

/-- A new directory below `/out` can be created. -/
theorem demo_out : OutDir demoFs (demoFs.resolve (cs!"/out/x" ++ ['/'])) :=
  ⟨demoFs_ok, by rw [demoFs_keys]; decide⟩

theorem in_pkl : HoldsSpace demo demoFs cs!"/data/in.pkl" zoo := ⟨cs!"S", rfl, demo_undump_S⟩

theorem in_name : SpacesName [cs!"/data/in.pkl"] cs!"in" :=
  .one (by simp) ⟨cs!"in.pkl", ⟨by decide, Or.inr ⟨cs!"/data", rfl⟩⟩, Or.inl ⟨cs!"pkl", by decide, rfl⟩⟩

theorem in_from : SpacesFrom demo demoFs [cs!"/data/in.pkl"] zoo none := .one in_pkl (by simp)

theorem data_base {nm : Str} (h : '/' ∉ nm) : IsBase (cs!"/data/" ++ nm) nm :=
  ⟨h, Or.inr ⟨cs!"/data", rfl⟩⟩

theorem one_col : pyInt cs!"1" = .ok ((0 + 1 : ℕ) : ℤ) := rfl
theorem two_col : pyInt cs!"2" = .ok ((1 + 1 : ℕ) : ℤ) := rfl
theorem three_col : pyInt cs!"3" = .ok ((2 + 1 : ℕ) : ℤ) := rfl

theorem zoo_cols : 0 < zoo.mat.nc := by show 0 < (exMat .dense).val.nc; decide

theorem parse_digit {c : Char} (h : c ∈ ['0', '1', '2', '3']) :
    decIO.parse [c] = some ((c.toNat - 48 : ℕ) : ℝ) := by
  simp only [List.mem_cons, List.not_mem_nil, or_false] at h
  have key : ∀ c : Char, c ≠ '-' → c ≠ '.' → isDig c = true → decIO.parse [c] = some ((c.toNat - 48 : ℕ) : ℝ) := by
    intro c h1 h2 h3
    show parseDec [c] = _
    rw [parseDec, if_neg h1]
    unfold parseUnsigned
    simp [h2, h3, evalDigits]
  rcases h with rfl | rfl | rfl | rfl <;> exact key _ (by decide) (by decide) (by decide)

theorem parse_x : decIO.parse cs!"x" = none := by
  show parseDec cs!"x" = none
  unfold parseDec parseUnsigned
  simp [isDig]

end Examples
end
end Dissect
