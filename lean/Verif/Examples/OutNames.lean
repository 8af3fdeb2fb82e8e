import Verif.Examples.Total
import Verif.Props.OutNames

/-! # C165: two runs of `build_core_space.py` into the same directory -/

namespace Dissect
noncomputable section
namespace Examples

/-- Three inputs: `x`, `x.plog` and `y`. -/
def namesFiles : List (List Str × Str) :=
  [([cs!"data", cs!"x.pkl"], cs!"S"), ([cs!"data", cs!"x.plog.pkl"], cs!"S"), ([cs!"data", cs!"y.pkl"], cs!"S")]

def namesDirs : List (List Str) := [[], [cs!"home"], [cs!"data"], [cs!"out"]]

def namesFs : Fs := ⟨[cs!"home"], namesDirs, ⟨namesFiles, by decide⟩⟩

theorem names_keys : namesFs.files.keys = namesFiles.map Prod.fst := rfl
theorem names_dirs : namesFs.dirs = namesDirs := rfl

theorem names_out : OutDir namesFs (namesFs.resolve (cs!"/out/x" ++ ['/'])) := by
  refine ⟨⟨by rw [names_dirs]; decide, by rw [names_dirs]; decide, ?_, ?_, ?_⟩, by rw [names_keys]; decide⟩
  · rw [names_dirs]; decide
  · rw [names_keys, names_dirs]; decide
  · rw [names_keys, names_dirs]; decide

def plogC : Choice := ⟨some cs!"plog", none, none, none⟩
def bareC : Choice := ⟨none, none, none, none⟩

theorem plogC_means : WMeans (some cs!"plog") [.scaling .plog] := .named (by decide)

theorem plogC_doc (c : Choice) (h : choices [some cs!"plog"] [none] [none] [none] c) : c = plogC ∧ c.Documented := by
  obtain ⟨w, s, r, n⟩ := c
  obtain ⟨h1, h2, h3, h4⟩ := h
  simp only [List.mem_singleton] at h1 h2 h3 h4
  subst h1 h2 h3 h4
  exact ⟨rfl, Or.inr ⟨_, by simp, plogC_means⟩, Or.inl (Or.inl rfl), Or.inl (Or.inl rfl), Or.inl (Or.inl rfl)⟩

theorem bareC_doc (c : Choice) (h : choices [none] [none] [none] [none] c) : c = bareC ∧ c.Documented := by
  obtain ⟨w, s, r, n⟩ := c
  obtain ⟨h1, h2, h3, h4⟩ := h
  simp only [List.mem_singleton] at h1 h2 h3 h4
  subst h1 h2 h3 h4
  exact ⟨rfl, Or.inl (Or.inl rfl), Or.inl (Or.inl rfl), Or.inl (Or.inl rfl), Or.inl (Or.inl rfl)⟩

theorem x_base : IsBase cs!"/data/x" cs!"x" := ⟨by decide, Or.inr ⟨cs!"/data", rfl⟩⟩

/-- The first run: `plog` of the input `x`. -/
theorem names_first : ∃ fs1, buildSpaces demo namesFs cs!"/data/x" cs!"pkl" cs!"/out/x" none [some cs!"plog"] [none] [none] [none] false = .ok fs1 ∧
    OutDir fs1 [cs!"out", cs!"x"] ∧ fs1.cwd = namesFs.cwd ∧ ∀ d ∈ fs1.dirs, d ∈ namesDirs ∨ d <+: [cs!"out", cs!"x"] := by
  have hin : InputSpace demo namesFs cs!"/data/x" false cs!"pkl" zoo := .pickle ⟨cs!"S", rfl, demo_undump_S⟩
  refine buildSpaces_total x_base (fun c h => (plogC_doc c h).2) (by simp) (by simp) (by simp) hin ?_ names_out ?_
  · intro i j k c hi hj hk hn a b d e ha hb hd _ he
    have := (plogC_doc c ⟨List.mem_of_getElem? hi, List.mem_of_getElem? hj, List.mem_of_getElem? hk, hn⟩).1
    subst this
    obtain rfl := plog_only ha
    obtain rfl := (sskip (Or.inl rfl)).1 hb
    obtain rfl := (rskip (Or.inl rfl)).1 hd
    obtain rfl := (nskip (Or.inl rfl)).1 he
    obtain ⟨s, h, -⟩ := weighting_total idealEnv zoo_plain zoo_nonneg (t := cs!"plog") (sc := .plog) (by decide)
    exact ⟨s, by simp only [List.append_nil]; rw [applyAll_single]; exact h⟩
  · intro c hc
    obtain ⟨rfl, -⟩ := plogC_doc c hc
    rw [names_dirs]; decide

/-- A second run, without operations, on an input called `nm`. -/
theorem names_second {fs1 : Fs} {nm : Str} (hnm : nm = cs!"x.plog" ∨ nm = cs!"y")
    (h1 : buildSpaces demo namesFs cs!"/data/x" cs!"pkl" cs!"/out/x" none [some cs!"plog"] [none] [none] [none] false = .ok fs1)
    (ho : OutDir fs1 [cs!"out", cs!"x"]) (hc : fs1.cwd = namesFs.cwd) (hd : ∀ d ∈ fs1.dirs, d ∈ namesDirs ∨ d <+: [cs!"out", cs!"x"]) :
    InputSpace demo fs1 (cs!"/data/" ++ nm) false cs!"pkl" zoo ∧
    ∃ fs2, buildSpaces demo fs1 (cs!"/data/" ++ nm) cs!"pkl" cs!"/out/x" none [none] [none] [none] [none] false = .ok fs2 := by
  have hr : fs1.resolve (cs!"/out/x" ++ ['/']) = [cs!"out", cs!"x"] := by
    rw [Fs.resolve_cwd hc]; decide
  have hread : fs1.read (cs!"/data/" ++ nm ++ cs!".pkl") = .ok cs!"S" := by
    have := C67_other_files x_base h1 (p := cs!"/data/" ++ nm ++ cs!".pkl") (fun c hc e he => by
      obtain ⟨rfl, -⟩ := plogC_doc c hc
      have key : ∀ e ∈ outExts, namesFs.resolve (cs!"/data/" ++ nm ++ cs!".pkl") ≠ namesFs.resolve (coreFile cs!"/out/x" cs!"x" plogC ++ ['.'] ++ e) := by
        rcases hnm with rfl | rfl <;> decide
      exact key e he)
    rw [this]
    rcases hnm with rfl | rfl <;> rfl
  have hin : InputSpace demo fs1 (cs!"/data/" ++ nm) false cs!"pkl" zoo := .pickle ⟨cs!"S", hread, demo_undump_S⟩
  refine ⟨hin, ?_⟩
  obtain ⟨fs2, h2, -⟩ := buildSpaces_total (outDir := cs!"/out/x") (base := nm) (ws := [none]) (ss := [none]) (rs := [none]) (ns := [none])
    (⟨by rcases hnm with rfl | rfl <;> decide, Or.inr ⟨cs!"/data", rfl⟩⟩ : IsBase (cs!"/data/" ++ nm) nm)
    (fun c h => (bareC_doc c h).2) (by simp) (by simp) (by simp) hin
    (by
      intro i j k c hi hj hk hn a b d e ha hb hd _ he
      have := (bareC_doc c ⟨List.mem_of_getElem? hi, List.mem_of_getElem? hj, List.mem_of_getElem? hk, hn⟩).1
      subst this
      obtain rfl := (wskip (Or.inl rfl)).1 ha
      obtain rfl := (sskip (Or.inl rfl)).1 hb
      obtain rfl := (rskip (Or.inl rfl)).1 hd
      obtain rfl := (nskip (Or.inl rfl)).1 he
      exact ⟨zoo, rfl⟩)
    (by rw [hr]; exact ho)
    (by
      intro c hc2 hm
      obtain ⟨rfl, -⟩ := bareC_doc c hc2
      rw [Fs.resolve_cwd hc] at hm
      rcases hd _ hm with hm | hm
      · revert hm; rcases hnm with rfl | rfl <;> decide
      · revert hm; rcases hnm with rfl | rfl <;> decide)
  exact ⟨fs2, h2⟩

theorem zoo_five : zoo.mat.val.get 1 2 = 5 := by
  show (exMat .dense).val.get 1 2 = 5
  rw [exMat, Mat.of_get_lt (by decide) (by decide)]
  norm_num

/-- Both runs on `x` (with `plog`) and on `x.plog` succeed; the file that held the weighted space then holds the unweighted
one, which is a different space. -/
example : ∃ fs1 fs2 : Fs, ∃ res : Space Str,
    buildSpaces demo namesFs cs!"/data/x" cs!"pkl" cs!"/out/x" none [some cs!"plog"] [none] [none] [none] false = .ok fs1 ∧
    buildSpaces demo fs1 cs!"/data/x.plog" cs!"pkl" cs!"/out/x" none [none] [none] [none] [none] false = .ok fs2 ∧ res ≠ zoo ∧
    fs1.read cs!"/out/x/CORE_SS.x.plog.pkl" = .ok (demo.dump (.space res)) ∧
    fs2.read cs!"/out/x/CORE_SS.x.plog.pkl" = .ok (demo.dump (.space zoo)) := by
  obtain ⟨fs1, h1, ho, hc, hd⟩ := names_first
  obtain ⟨hin, fs2, h2⟩ := names_second (Or.inl rfl) h1 ho hc hd
  obtain ⟨input, input', res, i1, i2, r, a, b⟩ := C165_refuted x_base
    (⟨by decide, Or.inr ⟨cs!"/data", rfl⟩⟩ : IsBase cs!"/data/x.plog" (cs!"x" ++ '.' :: cs!"plog")) plogC_means (by simp) h1 h2
  have e2 := (readInput_ok.2 i2).symm.trans (readInput_ok.2 hin)
  obtain rfl := ok_inj e2
  have e1 := (readInput_ok.2 i1).symm.trans (readInput_ok.2 (InputSpace.pickle (gz := false) (pre := cs!"/data/x")
    (⟨cs!"S", rfl, demo_undump_S⟩ : HoldsSpace demo namesFs (cs!"/data/x" ++ cs!".pkl") zoo)))
  obtain rfl := ok_inj e1
  refine ⟨fs1, fs2, res, h1, h2, fun h => ?_, a, b⟩
  rw [applyAll_single] at r
  have hp := (plog_zoo r).2.2
  rw [h, zoo_five] at hp
  have := Real.log_lt_sub_one_of_pos (x := 5) (by norm_num) (by norm_num)
  linarith

/-- Both runs on `x` (with `plog`) and on `y` succeed and both files are there. -/
example : ∃ fs1 fs2 : Fs, ∃ res : Space Str,
    buildSpaces demo namesFs cs!"/data/x" cs!"pkl" cs!"/out/x" none [some cs!"plog"] [none] [none] [none] false = .ok fs1 ∧
    buildSpaces demo fs1 cs!"/data/y" cs!"pkl" cs!"/out/x" none [none] [none] [none] [none] false = .ok fs2 ∧
    zoo.apply idealEnv (.scaling .plog) = .ok res ∧
    fs2.read cs!"/out/x/CORE_SS.x.plog.pkl" = .ok (demo.dump (.space res)) ∧
    fs2.read cs!"/out/x/CORE_SS.y.pkl" = .ok (demo.dump (.space zoo)) := by
  obtain ⟨fs1, h1, ho, hc, hd⟩ := names_first
  obtain ⟨hin, fs2, h2⟩ := names_second (Or.inr rfl) h1 ho hc hd
  obtain ⟨input, input', i1, i2, a, b⟩ := C165_two_inputs_partial x_base
    (⟨by decide, Or.inr ⟨cs!"/data", rfl⟩⟩ : IsBase cs!"/data/y" cs!"y") (by decide) (by decide) (by decide)
    (fun c h => (plogC_doc c h).2) (fun c h => (bareC_doc c h).2) h1 h2
  have e2 := (readInput_ok.2 i2).symm.trans (readInput_ok.2 hin)
  obtain rfl := ok_inj e2
  have e1 := (readInput_ok.2 i1).symm.trans (readInput_ok.2 (InputSpace.pickle (gz := false) (pre := cs!"/data/x")
    (⟨cs!"S", rfl, demo_undump_S⟩ : HoldsSpace demo namesFs (cs!"/data/x" ++ cs!".pkl") zoo)))
  obtain rfl := ok_inj e1
  have nl : NoneLike none := Or.inl rfl
  obtain ⟨res, ⟨x, y, z, u, n1, n2, n3, n4, n5⟩, r2⟩ := a plogC ⟨by simp [plogC], by simp [plogC], by simp [plogC], by simp [plogC]⟩
  obtain rfl := plog_only n1
  obtain rfl := (sskip nl).1 n2
  obtain rfl := (rskip nl).1 n3
  obtain rfl := (nskip nl).1 n4
  obtain ⟨res', ⟨x, y, z, u, m1, m2, m3, m4, m5⟩, r3⟩ := b bareC ⟨by simp [bareC], by simp [bareC], by simp [bareC], by simp [bareC]⟩
  obtain rfl := (wskip nl).1 m1
  obtain rfl := (sskip nl).1 m2
  obtain rfl := (rskip nl).1 m3
  obtain rfl := (nskip nl).1 m4
  obtain rfl := ok_inj m5
  simp only [List.append_nil] at n5
  rw [applyAll_single] at n5
  exact ⟨fs1, fs2, res, h1, h2, n5, r2, r3⟩

/-- A similarity file in the same directory is of another kind, a core space is not. -/
example : OtherKind namesFs cs!"CORE_SS." cs!"/out/x/SIMS.pairs.in.cos" ∧ ¬ OtherKind namesFs cs!"CORE_SS." cs!"/out/x/CORE_SS.x.pkl" := by
  constructor
  · intro dir nm h hk
    have e : namesFs.resolve cs!"/out/x/SIMS.pairs.in.cos" = [cs!"out", cs!"x"] ++ [cs!"SIMS.pairs.in.cos"] := by decide
    rw [e] at h
    have := (List.append_inj' h rfl).2
    injection this with this
    subst this
    revert hk; decide
  · intro h
    exact h [cs!"out", cs!"x"] cs!"CORE_SS.x.pkl" (by decide) (by decide)

end Examples
end
end Dissect
