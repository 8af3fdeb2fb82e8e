import Verif.Examples.Demo
import Verif.Examples.Scripts
import Verif.Examples.Train
import Verif.Lemmas.CrashEnds
import Verif.Props.Crash
import Verif.Props.Build

/-! # Runs of the scripts that build spaces and apply models, in the file system of the examples -/

namespace Dissect
noncomputable section
namespace Examples

/-! ## C67: `build_core_space` -/

theorem in_base : IsBase cs!"/data/in" cs!"in" := data_base (nm := cs!"in") (by decide)

/-- The weightings and the selections of the runs below. -/
def ws2 : List (Option Str) := [some cs!"ppmi", some cs!"none"]
def ss2 : List (Option Str) := [some cs!"top_sum_2", none]

theorem core_free (ch : Choice) (h : choices ws2 ss2 [none] [none] ch) :
    demoFs.resolve (coreFile cs!"/out/x" cs!"in" ch ++ cs!".pkl") ∉ demoFs.dirs := by
  obtain ⟨w, t, r, n⟩ := ch
  obtain ⟨hw, hs, hr, hn⟩ := h
  simp only [ws2, ss2, List.mem_cons, List.not_mem_nil, or_false] at hw hs hr hn
  subst hr hn
  rw [demoFs_dirs]
  rcases hw with rfl | rfl <;> rcases hs with rfl | rfl <;> decide

theorem core_documented (ch : Choice) (h : choices ws2 ss2 [none] [none] ch) : ch.Documented := by
  obtain ⟨w, t, r, n⟩ := ch
  obtain ⟨hw, hs, hr, hn⟩ := h
  simp only [ws2, ss2, List.mem_cons, List.not_mem_nil, or_false] at hw hs hr hn
  subst hr hn
  have hsel : SMeans (some cs!"top_sum_2") [.featsel 2 .sum] :=
    SMeans.named (p := cs!"top_sum_") (d := cs!"2") (by decide) (by decide) rfl (by decide)
  refine ⟨?_, ?_, Or.inl (Or.inl rfl), Or.inl (Or.inl rfl)⟩
  · rcases hw with rfl | rfl
    · exact Or.inr ⟨_, by simp, .named (sc := .ppmi) (by decide)⟩
    · exact Or.inl (Or.inr (Or.inr rfl))
  · rcases hs with rfl | rfl
    · exact Or.inr ⟨_, by simp, hsel⟩
    · exact Or.inl (Or.inl rfl)

theorem core_run (M : PyObj) : ∃ fs', buildSpaces (demoLib zoo M) demoFs cs!"/data/in" cs!"pkl" cs!"/out/x" none ws2 ss2 [none] [none]
    false = .ok fs' :=
  exCore_run zoo_wf rfl rfl (in_pkl_any M) demo_out core_free

/-- The file of `ppmi` and `top_sum_2` holds the result of the two transformations. -/
example : ∃ fs' res, buildSpaces demo demoFs cs!"/data/in" cs!"pkl" cs!"/out/x" none ws2 ss2 [none] [none] false = .ok fs' ∧
    (⟨some cs!"ppmi", some cs!"top_sum_2", none, none⟩ : Choice).Result idealEnv zoo res ∧
    fs'.read cs!"/out/x/CORE_SS.in.ppmi.top_sum_2.pkl" = .ok (demo.dump (.space res)) := by
  obtain ⟨fs', h⟩ := core_run sumModel
  obtain ⟨input, h1, h2⟩ := C67_every_combination in_base core_documented h
  have h3 := (readInput_ok.2 h1).symm.trans (readInput_ok.2 (InputSpace.pickle (gz := false) (in_pkl_any sumModel)))
  obtain rfl := ok_inj h3
  obtain ⟨res, h4, h5⟩ := h2 ⟨some cs!"ppmi", some cs!"top_sum_2", none, none⟩
    ⟨by simp [ws2], by simp [ss2], by simp, by simp⟩
  exact ⟨fs', res, h, h4, h5.pickle⟩

/-- The files of two combinations are different, and the input is not touched. -/
example : demoFs.resolve cs!"/out/x/CORE_SS.in.ppmi.top_sum_2.pkl" ≠ demoFs.resolve cs!"/out/x/CORE_SS.in.ppmi.pkl" ∧
    ∀ fs', buildSpaces demo demoFs cs!"/data/in" cs!"pkl" cs!"/out/x" none ws2 ss2 [none] [none] false = .ok fs' →
      fs'.read cs!"/data/in.pkl" = .ok cs!"S" := by
  constructor
  · refine C67_distinct_names demoFs (base := cs!"in") (outDir := cs!"/out/x")
      (c := ⟨some cs!"ppmi", some cs!"top_sum_2", none, none⟩) (d := ⟨some cs!"ppmi", none, none, none⟩) (by decide)
      (core_documented _ ⟨by simp [ws2], by simp [ss2], by simp, by simp⟩)
      (core_documented _ ⟨by simp [ws2], by simp [ss2], by simp, by simp⟩) ?_
    rintro ⟨_, hs, _, _⟩
    revert hs
    unfold SameOpt NoneLike
    decide
  · intro fs' h
    refine (C67_other_files in_base h ?_).trans (show demoFs.read cs!"/data/in.pkl" = .ok cs!"S" from rfl)
    rintro ⟨w, t, r, n⟩ ⟨hw, hs, hr, hn⟩ e he
    simp only [ws2, ss2, List.mem_cons, List.not_mem_nil, or_false] at hw hs hr hn
    subst hr hn
    revert e
    rcases hw with rfl | rfl <;> rcases hs with rfl | rfl <;> decide

/-- The same weighting twice: one file, which holds the result. -/
example (fs' : Fs) (h : buildSpaces demo demoFs cs!"/data/in" cs!"pkl" cs!"/out/x" none ws2 ss2 [none] [none] false = .ok fs') :
    ∃ d res, choices ws2 ss2 [none] [none] d ∧ d.Result idealEnv zoo res ∧
      fs'.read cs!"/out/x/CORE_SS.in.top_sum_2.pkl" = .ok (demo.dump (.space res)) := by
  obtain ⟨input, h1, h2⟩ := C67_any_options in_base h
  have h3 := (readInput_ok.2 h1).symm.trans (readInput_ok.2 (InputSpace.pickle (gz := false) (in_pkl_any sumModel)))
  obtain rfl := ok_inj h3
  obtain ⟨d, res, h4, h5, _, h6⟩ := h2 ⟨some cs!"none", some cs!"top_sum_2", none, none⟩
    ⟨by simp [ws2], by simp [ss2], by simp, by simp⟩
  exact ⟨d, res, h4, h5, h6⟩

example (ws ss rs ns : List (Option Str)) : buildSpaces demo demoFs cs!"/data/in" cs!"csv" cs!"/out/x" none ws ss rs ns false =
    .error .valueError := C67_bad_input (Or.inl (by decide))

example (ws ss rs ns : List (Option Str)) : buildSpaces demo demoFs cs!"/data/in" cs!"sm" cs!"/out/x" none ws ss rs ns false =
    .error .valueError := C67_bad_input (Or.inr ⟨rfl, by decide⟩)

/-! ## C81, C89: `build_peripheral_space` -/

theorem in_stem : IsStem cs!"/data/in.pkl" cs!"in" :=
  ⟨cs!"in.pkl", ⟨by decide, Or.inr ⟨cs!"/data", rfl⟩⟩, Or.inl ⟨cs!"pkl", by decide, rfl⟩⟩

theorem zoo_periph : ∃ p, PeriphFrom zoo zoo p := ⟨_, rfl⟩

theorem periph_run : ∃ fs', buildPeriph demo demoFs cs!"/data/in" cs!"pkl" cs!"/out/x" none cs!"/data/in.pkl" false = .ok fs' := by
  obtain ⟨p, hp⟩ := zoo_periph
  exact C81_succeeds in_base in_stem (.pickle in_pkl) in_pkl hp demo_out (by rw [demoFs_dirs]; decide)

/-- The input is not touched. -/
example : ∃ fs', buildPeriph demo demoFs cs!"/data/in" cs!"pkl" cs!"/out/x" none cs!"/data/in.pkl" false = .ok fs' ∧
    fs'.read cs!"/data/in.pkl" = .ok cs!"S" := by
  obtain ⟨fs', h⟩ := periph_run
  exact ⟨fs', h, (C81_other_files in_base in_stem h (by decide)).trans (show demoFs.read cs!"/data/in.pkl" = .ok cs!"S" from rfl)⟩

example (core : Str) : buildPeriph demo demoFs cs!"/data/in" cs!"txt" cs!"/out/x" none core false = .error .valueError :=
  C81_bad_input (Or.inl (by decide))

example (filter : Str) : buildPeriphBatch demo demoFs cs!"/data/in" cs!"pkl" cs!"/out/x" none cs!"/nowhere" filter false =
    .error .valueError := C81_batch_no_dir (.pickle in_pkl) (by decide)

/-- The core spaces of `/cores` with an `i` in their names. -/
theorem periph_batch_run : ∃ fs', buildPeriphBatch demo demoFs cs!"/data/in" cs!"pkl" cs!"/out/x" none cs!"/cores" cs!"i" false = .ok fs' := by
  obtain ⟨p, hp⟩ := zoo_periph
  have hc : HoldsSpace demo demoFs cs!"/cores/in.pkl" zoo := ⟨cs!"S", rfl, demo_undump_S⟩
  have hst : IsStem cs!"/cores/in.pkl" cs!"in" :=
    ⟨cs!"in.pkl", ⟨by decide, Or.inr ⟨cs!"/cores", rfl⟩⟩, Or.inl ⟨cs!"pkl", by decide, rfl⟩⟩
  obtain ⟨fs', h⟩ := C81_succeeds (outDir := cs!"/out/x") (gz := false) in_base hst (.pickle in_pkl) hc hp demo_out
    (by rw [demoFs_dirs]; decide)
  have hr : readInput demo demoFs cs!"/data/in" cs!"pkl" false = .ok zoo := readInput_ok.2 (.pickle in_pkl)
  refine ⟨fs', ?_⟩
  have hl : demoFs.listdir demo.dirOrder (withSlash cs!"/cores") = .ok [cs!"in.pkl", cs!"read.me"] := rfl
  have he : demoFs.exists_ cs!"/cores" = true := by decide
  have hf : [cs!"in.pkl", cs!"read.me"].filter (fun f => containsStr f cs!"i" && isPkl f) = [cs!"in.pkl"] := by decide
  have hw : withSlash cs!"/cores" ++ cs!"in.pkl" = cs!"/cores/in.pkl" := by decide
  simp only [buildPeriph, hr, ok_bind] at h
  simp only [buildPeriphBatch, hr, he, if_true, hl, ok_bind, hf, forFs, hw, h]

example : ∃ fs' p, buildPeriphBatch demo demoFs cs!"/data/in" cs!"pkl" cs!"/out/x" none cs!"/cores" cs!"i" false = .ok fs' ∧
    PeriphFrom zoo zoo p ∧ fs'.read cs!"/out/x/PER_SS.in.in.pkl" = .ok (demo.dump (.space p)) ∧
    fs'.read cs!"/data/in.pkl" = .ok cs!"S" := by
  obtain ⟨fs', h⟩ := periph_batch_run
  obtain ⟨raw, h1, h2⟩ := C81_batch in_base demo_names demo_order (by decide) h
  obtain rfl := ok_inj ((readInput_ok.2 h1).symm.trans (readInput_ok.2 (InputSpace.pickle (gz := false) in_pkl)))
  obtain ⟨p, h3, h4⟩ := h2 cs!"in" zoo (by decide) (by decide) ⟨cs!"S", rfl, demo_undump_S⟩
  refine ⟨fs', p, h, h3, h4.pickle, (C81_batch_other_files in_base h ?_).trans (show demoFs.read cs!"/data/in.pkl" = .ok cs!"S" from rfl)⟩
  intro st hst e he hh
  have hd : demoFs.resolve (periphFile cs!"/out/x" cs!"in" st ++ ['.'] ++ e) =
      [cs!"out", cs!"x", cs!"PER_SS.in." ++ st ++ ['.'] ++ e] := by
    have hs : '/' ∉ (cs!"PER_SS.in." ++ st ++ ['.'] ++ e : Str) := by
      have he' : '/' ∉ e := by
        have : ∀ e ∈ outExts, '/' ∉ e := by decide
        exact this e he
      simp [hst, he']
    have := resolve_in demoFs cs!"/out/x" hs (by simp) (by simp)
    rw [show demoFs.resolve (cs!"/out/x" ++ ['/']) = [cs!"out", cs!"x"] from rfl] at this
    refine Eq.trans ?_ this
    simp [periphFile]
  rw [hd] at hh
  rw [show demoFs.resolve cs!"/data/in.pkl" = [cs!"data", cs!"in.pkl"] from rfl] at hh
  cases hh

end Examples
end
end Dissect
