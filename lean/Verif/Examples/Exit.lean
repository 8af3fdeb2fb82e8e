import Verif.Examples.Objects
import Verif.Props.MainExit
import Verif.Props.ModelExport
import Verif.Lemmas.Decimal

/-! # Concrete instances of C84–C87: incomplete command lines, help, log files, exported parameters -/

namespace Dissect
noncomputable section
namespace Examples

/-! ## C84 -/

/-- A line of documented options is parsed. -/
theorem parses {c : Cli} {docs : List DocOpt} (hc : (c, docs) ∈ documentedScripts) (L : Lib) (fs : Fs) (gs : List Given)
    (hg : ∀ g ∈ gs, g.Valid docs) :
    ∃ st, c.parseArgs L.parseCfg fs (gs.map Given.render).flatten = .ok st ∧ ∀ o ∈ docs, st o.var = wanted gs (fun _ => none) o := by
  obtain ⟨st, h1, h2⟩ := parse_values (documentedScripts_ok _ hc) L.parseCfg fs gs hg [] (by intro a ha; cases ha)
    (fun _ => none) rfl
  rw [List.append_nil] at h1
  exact ⟨st, h1, h2⟩

/-- `build_core_space.py -i in`: no output directory. -/
example (L : Lib) (fs : Fs) : EndsWith fs none 1 (mainCoreR L fs [cs!"-i", cs!"in"]) := by
  obtain ⟨st, h1, h2⟩ := parses (c := cliCore) (docs := docCore) (by simp [documentedScripts]) L fs
    [⟨docCore[0], .shortSep 'i', cs!"in"⟩]
    (by intro g hg; simp only [List.mem_cons, List.not_mem_nil, or_false] at hg; subst hg; simp [Given.Valid, docCore])
  have hl : st cs!"log_file" = .none := h2 docCore[6] (by simp [docCore])
  have := C84_build_core_space h1 ⟨cs!"out_dir", by simp, h2 docCore[1] (by simp [docCore])⟩
  rw [hl] at this
  exact this

/-- `build_peripheral_space.py -i in -o out --input_format=dm`: no core space. -/
example (L : Lib) (fs : Fs) : EndsWith fs (some cs!"./build_core_space.log") 1 (mainPeriphR L fs
    [cs!"-i", cs!"in", cs!"-o", cs!"out", cs!"--input_format=dm"]) := by
  obtain ⟨st, h1, h2⟩ := parses (c := cliPeriph) (docs := docPeriph) (by simp [documentedScripts]) L fs
    [⟨docPeriph[0], .shortSep 'i', cs!"in"⟩, ⟨docPeriph[1], .shortSep 'o', cs!"out"⟩, ⟨docPeriph[6], .longEq, cs!"dm"⟩]
    (by intro g hg; simp only [List.mem_cons, List.not_mem_nil, or_false] at hg
        rcases hg with rfl | rfl | rfl <;> simp [Given.Valid, docPeriph])
  have hl : st cs!"log_file" = .str cs!"./build_core_space.log" := h2 docPeriph[5] (by simp [docPeriph])
  have := C84_build_peripheral_space h1 (.inr ⟨h2 docPeriph[3] (by simp [docPeriph]), h2 docPeriph[2] (by simp [docPeriph])⟩)
  rw [hl] at this
  exact this

/-- `compute_similarities.py -i pairs -o out -c 1,2`: no space. -/
example (L : Lib) (fs : Fs) : EndsWith fs none 1 (mainSimsR L fs
    [cs!"-i", cs!"pairs", cs!"-o", cs!"out", cs!"-c", cs!"1,2"]) := by
  obtain ⟨st, h1, h2⟩ := parses (c := cliSims) (docs := docSims) (by simp [documentedScripts]) L fs
    [⟨docSims[0], .shortSep 'i', cs!"pairs"⟩, ⟨docSims[1], .shortSep 'o', cs!"out"⟩, ⟨docSims[4], .shortSep 'c', cs!"1,2"⟩]
    (by intro g hg; simp only [List.mem_cons, List.not_mem_nil, or_false] at hg
        rcases hg with rfl | rfl | rfl <;> simp [Given.Valid, docSims])
  have hl : st cs!"log_file" = .none := h2 docSims[5] (by simp [docSims])
  have := C84_compute_similarities h1 (.inr ⟨h2 docSims[3] (by simp [docSims]), h2 docSims[2] (by simp [docSims])⟩)
  rw [hl] at this
  exact this

/-- `compute_neighbours.py -i words -o out -l d/x`: no space. -/
example (L : Lib) (fs : Fs) : EndsWith fs (some cs!"d/x") 1 (mainNeighR L fs
    [cs!"-i", cs!"words", cs!"-o", cs!"out", cs!"-l", cs!"d/x"]) := by
  obtain ⟨st, h1, h2⟩ := parses (c := cliNeigh) (docs := docNeigh) (by simp [documentedScripts]) L fs
    [⟨docNeigh[0], .shortSep 'i', cs!"words"⟩, ⟨docNeigh[1], .shortSep 'o', cs!"out"⟩, ⟨docNeigh[4], .shortSep 'l', cs!"d/x"⟩]
    (by intro g hg; simp only [List.mem_cons, List.not_mem_nil, or_false] at hg
        rcases hg with rfl | rfl | rfl <;> simp [Given.Valid, docNeigh])
  have hl : st cs!"log_file" = .str cs!"d/x" := h2 docNeigh[4] (by simp [docNeigh])
  have := C84_compute_neighbours h1 ⟨cs!"spaces", by simp, h2 docNeigh[2] (by simp [docNeigh])⟩
  rw [hl] at this
  exact this

/-- `train_composition.py -i tr -o out -m full_add -a s.pkl`: no phrase space. -/
example (L : Lib) (fs : Fs) : EndsWith fs none 1 (mainTrainR L fs
    [cs!"-i", cs!"tr", cs!"-o", cs!"out", cs!"-m", cs!"full_add", cs!"-a", cs!"s.pkl"]) := by
  obtain ⟨st, h1, h2⟩ := parses (c := cliTrain) (docs := docTrain) (by simp [documentedScripts]) L fs
    [⟨docTrain[0], .shortSep 'i', cs!"tr"⟩, ⟨docTrain[1], .shortSep 'o', cs!"out"⟩, ⟨docTrain[2], .shortSep 'm', cs!"full_add"⟩, ⟨docTrain[7], .shortSep 'a', cs!"s.pkl"⟩]
    (by intro g hg; simp only [List.mem_cons, List.not_mem_nil, or_false] at hg
        rcases hg with rfl | rfl | rfl | rfl <;> simp [Given.Valid, docTrain])
  have hl : st cs!"log_file" = .none := h2 docTrain[10] (by simp [docTrain])
  have := C84_train_composition h1 ⟨cs!"phrase_space", by simp, h2 docTrain[8] (by simp [docTrain])⟩
  rw [hl] at this
  exact this

/-- `apply_composition.py -i pairs -o out -a s.pkl -m mult --load_model m.pkl`: two models. -/
example (L : Lib) (fs : Fs) : EndsWith fs none 1 (mainApplyR L fs
    [cs!"-i", cs!"pairs", cs!"-o", cs!"out", cs!"-a", cs!"s.pkl", cs!"-m", cs!"mult", cs!"--load_model", cs!"m.pkl"]) := by
  obtain ⟨st, h1, h2⟩ := parses (c := cliApply) (docs := docApply) (by simp [documentedScripts]) L fs
    [⟨docApply[0], .shortSep 'i', cs!"pairs"⟩, ⟨docApply[1], .shortSep 'o', cs!"out"⟩, ⟨docApply[7], .shortSep 'a', cs!"s.pkl"⟩, ⟨docApply[2], .shortSep 'm', cs!"mult"⟩, ⟨docApply[6], .longSep, cs!"m.pkl"⟩]
    (by intro g hg; simp only [List.mem_cons, List.not_mem_nil, or_false] at hg
        rcases hg with rfl | rfl | rfl | rfl | rfl <;> simp [Given.Valid, docApply])
  have hl : st cs!"log_file" = .none := h2 docApply[9] (by simp [docApply])
  have := C84_apply_composition h1 (.inr (.inr ⟨⟨_, h2 docApply[2] (by simp [docApply])⟩, ⟨_, h2 docApply[6] (by simp [docApply])⟩⟩))
  rw [hl] at this
  exact this

/-- `evaluate_similarities.py -m pearson -c 3,4`: no input. -/
example (L : Lib) (fs : Fs) : EndsWith fs none 1 (mainEvalR L fs
    [cs!"-m", cs!"pearson", cs!"-c", cs!"3,4"]) := by
  obtain ⟨st, h1, h2⟩ := parses (c := cliEval) (docs := docEval) (by simp [documentedScripts]) L fs
    [⟨docEval[3], .shortSep 'm', cs!"pearson"⟩, ⟨docEval[4], .shortSep 'c', cs!"3,4"⟩]
    (by intro g hg; simp only [List.mem_cons, List.not_mem_nil, or_false] at hg
        rcases hg with rfl | rfl <;> simp [Given.Valid, docEval])
  have hl : st cs!"log_file" = .none := h2 docEval[5] (by simp [docEval])
  have := C84_evaluate_similarities h1 (.inr ⟨h2 docEval[1] (by simp [docEval]), h2 docEval[0] (by simp [docEval])⟩)
  rw [hl] at this
  exact this

/-- `compute_similarities.py -i pairs -o out -c 1,2 -s s.pkl` and `compute_neighbours.py -i words -o out -s s.pkl`: no measure. -/
example (L : Lib) (fs : Fs) : EndsWith fs none 1 (mainSimsR L fs
    [cs!"-i", cs!"pairs", cs!"-o", cs!"out", cs!"-c", cs!"1,2", cs!"-s", cs!"s.pkl"]) :=
  C84_missing_measure (s := scripts[4]) (.inl ⟨rfl, rfl⟩)
    (gs := [⟨docSims[0], .shortSep 'i', cs!"pairs"⟩, ⟨docSims[1], .shortSep 'o', cs!"out"⟩, ⟨docSims[4], .shortSep 'c', cs!"1,2"⟩,
      ⟨docSims[2], .shortSep 's', cs!"s.pkl"⟩])
    (by intro g hg; simp only [List.mem_cons, List.not_mem_nil, or_false] at hg
        rcases hg with rfl | rfl | rfl | rfl <;> simp [Given.Valid, docSims, scripts])
    (tail := []) (by intro a ha; cases ha) (cfg := fun _ => none) rfl rfl

example (L : Lib) (fs : Fs) : EndsWith fs none 1 (mainNeighR L fs
    [cs!"-i", cs!"words", cs!"-o", cs!"out", cs!"-s", cs!"s.pkl"]) :=
  C84_missing_measure (s := scripts[5]) (.inr ⟨rfl, rfl⟩)
    (gs := [⟨docNeigh[0], .shortSep 'i', cs!"words"⟩, ⟨docNeigh[1], .shortSep 'o', cs!"out"⟩, ⟨docNeigh[2], .shortSep 's', cs!"s.pkl"⟩])
    (by intro g hg; simp only [List.mem_cons, List.not_mem_nil, or_false] at hg
        rcases hg with rfl | rfl | rfl <;> simp [Given.Valid, docNeigh, scripts])
    (tail := []) (by intro a ha; cases ha) (cfg := fun _ => none) rfl rfl

/-! ## C87, C85 -/

/-- `train_composition.py -m full_add -h`. -/
example (L : Lib) (fs : Fs) : (mainTrainR L fs [cs!"-m", cs!"full_add", cs!"-h"]).out = .error (.exit 0) :=
  (C87_help_partial (s := scripts[2]) (by simp [scripts]) (gs := [⟨docTrain[2], .shortSep 'm', cs!"full_add"⟩])
    (by intro g hg; simp only [List.mem_cons, List.not_mem_nil, or_false] at hg
        subst hg; simp [Given.Valid, docTrain, scripts])
    (.inl rfl) (rest := []) (by
      intro opts tail h
      have h0 : getopt scripts[2].cli.short scripts[2].cli.longs [] = some ([], []) :=
        getopt_positional (tail := []) (by intro a ha; cases ha)
      rw [h0] at h
      injection h with h
      injection h with h1 h2
      subst h2
      exact ⟨fun _ => none, rfl⟩)).1

/-- `train_composition.py --help -m full_add`. -/
example (L : Lib) (fs : Fs) : (mainTrainR L fs [cs!"--help", cs!"-m", cs!"full_add"]).out = .error (.exit 0) :=
  (C87_help_alone (s := scripts[2]) (by simp [scripts]) (.inr rfl) (gs := [⟨docTrain[2], .shortSep 'm', cs!"full_add"⟩])
    (by intro g hg; simp only [List.mem_cons, List.not_mem_nil, or_false] at hg
        subst hg; simp [Given.Valid, docTrain, scripts])).1

example : ∃ fs', configLogging fs0 (some cs!"logs/run.log") = .ok fs' ∧ fs'.read cs!"logs/run.log" = .ok [] := by
  obtain ⟨fs', h1, h2, -⟩ := C85_log_partial fs0_ok (name := cs!"logs/run.log") (by decide) (by decide) (by decide) (by decide)
    (by simp [fs0, Dict.empty, Dict.keys])
  exact ⟨fs', h1, h2⟩

/-! ## C86 -/

/-- Some library whose number routines satisfy their laws. -/
theorem export_ok {L : Lib} {m : PyObj} (h : ∃ txt, ∀ fs file, exportModel L fs m file =
      (fs.createParentDirectories file >>= fun fs1 => fs1.write file txt)) :
    ∃ fs', exportModel L fs0 m cs!"m/x.params" = .ok fs' := by
  obtain ⟨txt, h⟩ := h
  obtain ⟨fs', h', -⟩ := C62_save_partial fs0_ok (name := cs!"m/x.params") (content := txt)
    (by decide) (by decide) (by decide) (by decide) (by simp [fs0, Dict.empty, Dict.keys])
  exact ⟨fs', by rw [h]; exact h'⟩

example (L : Lib) (hL : L.io = decIO) : ∃ fs', exportModel L fs0 (.composer ⟨.weighted 1 2, none⟩) cs!"m/x.params" = .ok fs' ∧
    ParamsIn L.io fs' cs!"m/x.params" [(cs!"alpha", 1), (cs!"beta", 2)] := by
  obtain ⟨fs', h⟩ := export_ok (L := L) (m := .composer ⟨.weighted 1 2, none⟩) ⟨_, fun _ _ => rfl⟩
  exact ⟨fs', h, C86_weighted_additive (F := {x | ∃ k : ℤ, x = k / 1000000}) (by rw [hL]; exact decIO_laws) ⟨1000000, by norm_num⟩ ⟨2000000, by norm_num⟩ h⟩

example (L : Lib) (hL : L.io = decIO) : ∃ fs', exportModel L fs0 (.composer ⟨.dilation 2, none⟩) cs!"m/x.params" = .ok fs' ∧
    ParamsIn L.io fs' cs!"m/x.params" [(cs!"lambda", 2)] := by
  obtain ⟨fs', h⟩ := export_ok (L := L) (m := .composer ⟨.dilation 2, none⟩) ⟨_, fun _ _ => rfl⟩
  exact ⟨fs', h, C86_dilation (F := {x | ∃ k : ℤ, x = k / 1000000}) (by rw [hL]; exact decIO_laws) ⟨2000000, by norm_num⟩ h⟩

example (L : Lib) : ∃ fs' : Fs, ∃ A B : Mat ℝ, ∃ C : Option (Mat ℝ), C.isSome = true ∧
    fs'.read cs!"m/x.params" = .ok (cs!"A\n" ++ L.strMat A ++ cs!"\nB\n" ++ L.strMat B ++ (match C with
      | some c => cs!"\nIntercept\n" ++ L.strMat c
      | none => [])) := by
  obtain ⟨fs', h⟩ := export_ok (L := L) (m := .composer ⟨.fullAdditive (some ⟨.dense, Mat.of 1 1 (fun _ _ => 2)⟩)
      (some ⟨.dense, Mat.of 2 1 (fun i _ => if i = 0 then 3 else 7)⟩) true none, none⟩) ⟨_, fun _ _ => rfl⟩
  obtain ⟨A, B, C, -, -, h3, h4, -⟩ := C86_full_additive (n1 := 1) (n2 := 1) (w := 1)
    ⟨by decide, by decide, by decide, rfl, rfl, rfl, rfl⟩ h
  refine ⟨fs', A, B, C, h3.1, ?_⟩
  rw [h4]
  cases C <;> rfl

example (L : Lib) (fs : Fs) (file : Str) : ∃ e, exportModel L fs (.composer ⟨.multiplicative, none⟩) file = .error e :=
  (C86_nothing_to_export (m := .composer ⟨.multiplicative, none⟩) trivial file).1

example (L : Lib) : exportModel L fs0 (.lexfun (LexFun.ofLearner (.lstsq true))) cs!"./x.params" = .error .illegalStateError :=
  C86_untrained (m := .lexfun (LexFun.ofLearner (.lstsq true))) rfl (by intro c h; cases h) (fs1 := fs0) rfl

end Examples
end
end Dissect
