import Verif.Lemmas.Main
import Verif.Props.Cli

/-! # C69, C76, C77: `train_composition.py` -/

namespace Dissect
noncomputable section

theorem isExt_params : IsExt cs!"params" := by unfold IsExt; decide

theorem params_eq (f : Str) : f ++ cs!".params" = f ++ ['.'] ++ cs!"params" := by simp

/-- What `exportModel` may write: the parameter file itself and, for the lexical function, the files of its space. -/
def paramFiles (f : Str) : List Str :=
  (f ++ cs!".params") :: outExts.map (fun e => f ++ cs!".params" ++ ['.'] ++ e)

theorem exportModel_frame {L : Lib} {fs fs' : Fs} {m : PyObj} {f : Str} (h : exportModel L fs m (f ++ cs!".params") = .ok fs') :
    fs'.cwd = fs.cwd ∧ ∀ x, (∀ p ∈ paramFiles f, x ≠ fs.resolve p) → fs'.files.get? x = fs.files.get? x := by
  have hw : ∀ {c : Str} {fs' : Fs},
      (fs.createParentDirectories (f ++ cs!".params") >>= fun fs1 => fs1.write (f ++ cs!".params") c) = .ok fs' →
      fs'.cwd = fs.cwd ∧ ∀ x, (∀ p ∈ paramFiles f, x ≠ fs.resolve p) → fs'.files.get? x = fs.files.get? x := by
    intro c fs' h
    obtain ⟨a, _, b⟩ := save_ok (show fs.save c (f ++ cs!".params") = .ok fs' from h)
    refine ⟨a, fun x hx => ?_⟩
    rw [b, if_neg (hx _ (by simp [paramFiles]))]
  unfold exportModel at h
  split at h
  · cases h
  · exact hw h
  · exact hw h
  · exact hw h
  · rw [bind_eq_ok] at h
    obtain ⟨_, _, h⟩ := h
    cases h
  · rw [bind_eq_ok] at h
    obtain ⟨fs1, h1, h⟩ := h
    have g1 := Fs.createParent_files h1
    split at h
    · cases h
    · obtain ⟨a, b⟩ := export_frame h
      refine ⟨a.trans g1.2, fun x hx => ?_⟩
      rw [b x (fun e he => ?_), g1.1]
      rw [Fs.resolve_cwd g1.2]
      exact hx _ (by simp only [paramFiles, List.mem_cons, List.mem_map]; exact Or.inr ⟨e, he, rfl⟩)
  · cases h

theorem paramFiles_pkl (fs : Fs) (f : Str) {e : Str} (hne : e ≠ cs!"pkl") (he : IsExt e) {g : Str} :
    fs.resolve (f ++ cs!".pkl") ≠ fs.resolve (g ++ ['.'] ++ e) := by
  intro h
  rw [pkl_eq] at h
  exact hne (resolve_ext_eq isExt_pkl he h).1.symm

/-- The extensions that `export` writes. -/
theorem export_pkl_other {io : NumIO} {fs fs' : Fs} {s : Space Str} {st : Csr ℝ} {f g : Str} {fmt : Option Str}
    (h : s.export io fs st g fmt = .ok fs') :
    fs'.files.get? (fs.resolve (f ++ cs!".pkl")) = fs.files.get? (fs.resolve (f ++ cs!".pkl")) := by
  have hw : ∀ {fs fs' : Fs} {e c : Str}, fs.write (g ++ ['.'] ++ e) c = .ok fs' → e ≠ cs!"pkl" → IsExt e →
      fs'.cwd = fs.cwd ∧ fs'.files.get? (fs.resolve (f ++ cs!".pkl")) = fs.files.get? (fs.resolve (f ++ cs!".pkl")) := by
    intro fs fs' e c h hne he
    obtain ⟨h1, _, _, h4⟩ := Fs.write_ok h
    refine ⟨h1, ?_⟩
    rw [h4, if_neg (paramFiles_pkl fs f hne he)]
  simp only [Space.export, bind_eq_ok, exportRowColumn] at h
  obtain ⟨fs1, h1, fs2, h2, fs3, h3, h4⟩ := h
  have g1 := Fs.createParent_files h1
  have g2 : fs2.cwd = fs1.cwd ∧ fs2.files.get? (fs1.resolve (f ++ cs!".pkl")) = fs1.files.get? (fs1.resolve (f ++ cs!".pkl")) := by
    unfold exportMatrix at h2
    cases fmt with
    | none => injection h2 with h2; subst h2; exact ⟨rfl, rfl⟩
    | some g =>
      simp only [] at h2
      split at h2
      · obtain ⟨txt, _, h2⟩ := Fs.writeText_ok.1 h2
        exact hw h2 (by unfold fmtDm; decide) (by unfold IsExt fmtDm; decide)
      · split at h2
        · split at h2
          · cases h2
          · obtain ⟨txt, _, h2⟩ := Fs.writeText_ok.1 h2
            exact hw h2 (by unfold fmtSm; decide) (by unfold IsExt fmtSm; decide)
        · cases h2
  have g3 : fs3.cwd = fs2.cwd ∧ fs3.files.get? (fs2.resolve (f ++ cs!".pkl")) = fs2.files.get? (fs2.resolve (f ++ cs!".pkl")) := by
    unfold exportCols at h3
    split at h3
    · exact hw h3 (by decide) (by unfold IsExt; decide)
    · injection h3 with h3; subst h3; exact ⟨rfl, rfl⟩
  have g4 := hw h4 (by decide) (by unfold IsExt; decide)
  have r1 := Fs.resolve_cwd g1.2 (f ++ cs!".pkl")
  have r2 := Fs.resolve_cwd g2.1 (f ++ cs!".pkl")
  have r3 := Fs.resolve_cwd g3.1 (f ++ cs!".pkl")
  have e4 := g4.2
  rw [r3, g3.2, r2, g2.2, r1, g1.1] at e4
  exact e4

theorem exportModel_pkl {L : Lib} {fs fs' : Fs} {m : PyObj} {f : Str} (h : exportModel L fs m (f ++ cs!".params") = .ok fs') :
    fs'.files.get? (fs.resolve (f ++ cs!".pkl")) = fs.files.get? (fs.resolve (f ++ cs!".pkl")) := by
  have hw : ∀ {c : Str} {fs' : Fs},
      (fs.createParentDirectories (f ++ cs!".params") >>= fun fs1 => fs1.write (f ++ cs!".params") c) = .ok fs' →
      fs'.files.get? (fs.resolve (f ++ cs!".pkl")) = fs.files.get? (fs.resolve (f ++ cs!".pkl")) := by
    intro c fs' h
    obtain ⟨_, _, b⟩ := save_ok (show fs.save c (f ++ cs!".params") = .ok fs' from h)
    rw [b, if_neg]
    rw [params_eq]
    exact paramFiles_pkl fs f (by decide) isExt_params
  unfold exportModel at h
  split at h
  · cases h
  · exact hw h
  · exact hw h
  · exact hw h
  · rw [bind_eq_ok] at h
    obtain ⟨_, _, h⟩ := h
    cases h
  · rw [bind_eq_ok] at h
    obtain ⟨fs1, h1, h⟩ := h
    have g1 := Fs.createParent_files h1
    split at h
    · cases h
    · have := export_pkl_other (f := f) h
      rw [Fs.resolve_cwd g1.2, g1.1] at this
      exact this
  · cases h

theorem trainedFile_eq {inFile base : Str} (hb : IsBase inFile base) (outDir model : Str) :
    outDir ++ cs!"/TRAINED_COMP_MODEL" ++ ['.'] ++ model ++ ['.'] ++ lastComp inFile = trainedFile outDir model base := by
  rw [lastComp_of_base hb]
  simp [trainedFile]

/-- **C76** When `train_model` returns, `TRAINED_COMP_MODEL.<model>.<input>.pkl` in the output directory holds the model of
the requested class, trained with the requested learner on the triples of the input file and the given spaces. -/
theorem C76_saves {L : Lib} {fs fs' : Fs} {inFile base outDir model phraseFile : Str} {argFiles : List Str}
    {regression : Option Str} {cv ic ex : Bool} {param : ParamVal} {range : Option (List ℝ)} (hb : IsBase inFile base)
    (h : trainModel L fs inFile outDir model argFiles phraseFile regression cv ic param range ex = .ok fs') :
    ∃ first args phrase txt data obj, ArgsFrom L fs argFiles first args ∧ HoldsSpace L fs phraseFile phrase ∧
      fs.read inFile = .ok txt ∧ TriplesOf txt data ∧
      Trained L.env (DocLearner regression cv ic param.number range) first args phrase data model obj ∧
      fs'.read (trainedFile outDir model base ++ cs!".pkl") = .ok (L.dump obj) := by
  unfold trainModel at h
  split at h
  · cases h
  · rename_i f gs
    simp only [bind_eq_ok] at h
    obtain ⟨arg, h1, arg2, h2, phrase, h3, obj, h4, fs1, h5, h6⟩ := h
    obtain ⟨txt, data, t1, t2, t3⟩ := trainObj_ok h4
    rw [trainedFile_eq hb] at h5 h6
    refine ⟨arg, argsOf arg arg2, phrase, txt, data, obj, loadSecond_args h1 h2, loadSpace_ok.1 h3, t1, t2, t3, ?_⟩
    obtain ⟨a, b, c⟩ := save_ok h5
    cases ex with
    | false => obtain rfl := ok_inj h6; exact b
    | true =>
      have k1 := exportModel_frame h6
      have k2 := exportModel_pkl h6
      rw [← b]
      exact read_congr k1.1 k2

/-- **C76** No other file is touched: only the pickle and, if asked for, the files with the parameters are written. -/
theorem C76_other_files {L : Lib} {fs fs' : Fs} {inFile base outDir model phraseFile : Str} {argFiles : List Str}
    {regression : Option Str} {cv ic ex : Bool} {param : ParamVal} {range : Option (List ℝ)} (hb : IsBase inFile base)
    (h : trainModel L fs inFile outDir model argFiles phraseFile regression cv ic param range ex = .ok fs')
    {p : Str} (h1 : fs.resolve p ≠ fs.resolve (trainedFile outDir model base ++ cs!".pkl"))
    (h2 : ex = true → ∀ q ∈ paramFiles (trainedFile outDir model base), fs.resolve p ≠ fs.resolve q) :
    fs'.read p = fs.read p := by
  unfold trainModel at h
  split at h
  · cases h
  · rename_i f gs
    simp only [bind_eq_ok] at h
    obtain ⟨arg, _, arg2, _, phrase, _, obj, _, fs1, h5, h6⟩ := h
    rw [trainedFile_eq hb] at h5 h6
    obtain ⟨a, b, c⟩ := save_ok h5
    have e1 : fs1.read p = fs.read p := read_congr a (by rw [c, if_neg h1])
    cases ex with
    | false => obtain rfl := ok_inj h6; exact e1
    | true =>
      have k1 := exportModel_frame h6
      rw [← e1]
      refine read_congr k1.1 (k1.2 _ (fun q hq => ?_))
      rw [Fs.resolve_cwd a, Fs.resolve_cwd a]
      exact h2 rfl q hq

/-- **C76** A model name that is not one of the four is a `ValueError` (when the spaces can be loaded). -/
theorem C76_unknown_model {L : Lib} {fs : Fs} {inFile outDir model phraseFile : Str} {argFiles : List Str}
    {regression : Option Str} {cv ic ex : Bool} {param : ParamVal} {range : Option (List ℝ)}
    {first phrase : Space Str} {args : ArgSpace Str} (ha : ArgsFrom L fs argFiles first args) (hp : HoldsSpace L fs phraseFile phrase)
    (hm : model ∉ [cs!"weighted_add", cs!"full_add", cs!"lexical_func", cs!"dilation"]) :
    trainModel L fs inFile outDir model argFiles phraseFile regression cv ic param range ex = .error .valueError := by
  simp only [List.mem_cons, List.not_mem_nil, or_false, not_or] at hm
  have hp' := loadSpace_ok.2 hp
  unfold trainModel
  cases ha with
  | two h1 h2 =>
    simp only [loadSpace_ok.2 h1, loadSpace_ok.2 h2, hp', ok_bind, loadSecond, trainObj, pure_eq_ok, hm, if_false, error_bind]
  | @one f gs s h1 hl =>
    have : loadSecond L fs (f :: gs) = .ok none := by
      match gs, hl with
      | [], _ => rfl
      | [g], hl => simp at hl
      | _ :: _ :: _, _ => rfl
    simp only [loadSpace_ok.2 h1, this, hp', ok_bind, trainObj, hm, if_false, error_bind]

/-! ### C69 -/

theorem mainTrain_ok {L : Lib} {fs fs' : Fs} {argv : List Str} (h : mainTrain L fs argv = .ok fs') :
    ∃ st fs1 inFile outDir model argFiles phraseFile cv ic ex param range,
      cliTrain.parseArgs L.parseCfg fs argv = .ok st ∧ configLogging fs (st cs!"log_file").asStr = .ok fs1 ∧
      (st cs!"in_file").asStr = some inFile ∧ (st cs!"out_dir").asStr = some outDir ∧ (st cs!"model").asStr = some model ∧
      (st cs!"arg_space").asList = some argFiles ∧ (st cs!"phrase_space").asStr = some phraseFile ∧
      L.evalBool (st cs!"crossvalidation").strD = .ok (some cv) ∧ L.evalBool (st cs!"intercept").strD = .ok (some ic) ∧
      L.evalBool (st cs!"export_params").strD = .ok (some ex) ∧
      paramsOf L.io (st cs!"param").asStr (st cs!"param_range").asList = .ok (param, range) ∧
      checkLambda cv (st cs!"regression").asStr param = .ok () ∧
      trainModel L fs1 inFile outDir model argFiles phraseFile (st cs!"regression").asStr cv ic param range ex = .ok fs' := by
  simp only [mainTrain, main_bind_ok, lift_ok, require_ok, requireBool] at h
  obtain ⟨st, h1, fs1, h2, i, h3, o, h4, m, h5, a, h6, p, h7, cv, h8, ic, h9, ic', h10, cv', h11, ex, h12, ex', h13,
    ⟨param, range⟩, h14, u, h15, h16⟩ := h
  subst h10 h11 h13
  exact ⟨st, fs1, i, o, m, a, p, cv', ic', ex', param, range, h1, h2, h3, h4, h5, h6, h7, h8, h9, h12, h14, h15, h16⟩

/-- The numbers of `paramsOf`. -/
theorem paramsOf_ok {io : NumIO} {v w : OptVal} {param : ParamVal} {range : Option (List ℝ)}
    (h : paramsOf io v.asStr w.asList = .ok (param, range)) :
    ∃ lam, NumOpt io v lam ∧ NumsOpt io w range ∧
      ((∀ s ss, w.asList ≠ some (s :: ss)) → param.number = lam ∧ (param = .none ↔ lam = none)) ∧
      (∀ s ss, w.asList = some (s :: ss) → ∃ t, param = .text t) := by
  simp only [paramsOf, bind_eq_ok] at h
  obtain ⟨lam, h1, h2⟩ := h
  refine ⟨lam, floatOpt_ok.1 h1, ?_⟩
  split at h2
  · rename_i hw
    rw [pure_eq_ok, Except.ok.injEq, Prod.mk.injEq] at h2
    obtain ⟨rfl, rfl⟩ := h2
    refine ⟨?_, fun _ => by cases lam <;> simp [ParamVal.number], fun s ss hc => ?_⟩
    · unfold NumsOpt; rw [hw]
    · rw [hw] at hc; cases hc
  · rename_i l hw
    rw [bind_eq_ok] at h2
    obtain ⟨xs, h3, h4⟩ := h2
    split at h4
    · rename_i hl
      rw [pure_eq_ok, Except.ok.injEq, Prod.mk.injEq] at h4
      obtain ⟨rfl, rfl⟩ := h4
      have : l = [] := List.getLast?_eq_none_iff.1 hl
      subst this
      refine ⟨?_, fun _ => by cases lam <;> simp [ParamVal.number], fun s ss hc => ?_⟩
      · unfold NumsOpt; rw [hw]; exact ⟨xs, floatList_ok.1 h3, rfl⟩
      · rw [hw] at hc; cases hc
    · rename_i t hl
      rw [pure_eq_ok, Except.ok.injEq, Prod.mk.injEq] at h4
      obtain ⟨rfl, rfl⟩ := h4
      refine ⟨?_, fun hno => ?_, fun s ss _ => ⟨t, rfl⟩⟩
      · unfold NumsOpt; rw [hw]; exact ⟨xs, floatList_ok.1 h3, rfl⟩
      · cases l with
        | nil => cases hl
        | cons s ss => exact absurd hw (hno s ss)

/-- **C69** (partial: when no `--lambda_range` is given; see the refutation). Without cross validation, a run that
succeeds leaves a model trained with ridge regression at exactly the value of `--lambda`. -/
theorem C69_lambda_partial {L : Lib} {fs fs' : Fs} {argv : List Str} {st : Settings} {model inFile base outDir : Str}
    (hst : cliTrain.parseArgs L.parseCfg fs argv = .ok st) (hr : st cs!"regression" = .str cs!"ridge")
    (hcv : L.evalBool (st cs!"crossvalidation").strD = .ok (some false))
    (hm : st cs!"model" = .str model) (hmm : model = cs!"full_add" ∨ model = cs!"lexical_func")
    (hi : st cs!"in_file" = .str inFile) (hb : IsBase inFile base) (ho : st cs!"out_dir" = .str outDir)
    (hrange : (st cs!"param_range").asList = none) (h : mainTrain L fs argv = .ok fs') :
    ∃ s x ic, st cs!"param" = .str s ∧ L.io.parse s = some x ∧ L.evalBool (st cs!"intercept").strD = .ok (some ic) ∧
      ∃ first args phrase data obj,
        Trained L.env (fun l => l = .ridge ic false lambdaGrid (some x)) first args phrase data model obj ∧
        fs'.read (trainedFile outDir model base ++ cs!".pkl") = .ok (L.dump obj) := by
  obtain ⟨st', fs1, i, o, m, a, p, cv, ic, ex, param, range, h1, h2, h3, h4, h5, h6, h7, h8, h9, h10, h11, h12, h13⟩ :=
    mainTrain_ok h
  rw [hst] at h1
  injection h1 with h1; subst h1
  rw [hcv] at h8
  simp only [Except.ok.injEq, Option.some.injEq] at h8
  subst h8
  rw [hi] at h3; rw [ho] at h4; rw [hm] at h5; rw [hr] at h12 h13
  simp only [OptVal.asStr, Option.some.injEq] at h3 h4 h5 h12 h13
  subst h3 h4 h5
  obtain ⟨lam, k1, k2, k3, _⟩ := paramsOf_ok h11
  obtain ⟨k3, k4⟩ := k3 (by intro s ss; rw [hrange]; simp)
  unfold NumsOpt at k2
  rw [hrange] at k2
  subst k2
  have hlam : lam ≠ none := by
    intro hn
    rw [k4.2 hn] at h12
    cases h12
  obtain ⟨x, rfl⟩ := Option.ne_none_iff_exists'.1 hlam
  unfold NumOpt at k1
  have hs : ∃ s, st cs!"param" = .str s := by
    cases hv : st cs!"param" with
    | str s => exact ⟨s, rfl⟩
    | none => rw [hv] at k1; cases k1
    | list l => rw [hv] at k1; cases k1
  obtain ⟨s, hs⟩ := hs
  rw [hs] at k1
  obtain ⟨y, hy, hxy⟩ := k1
  injection hxy with hxy; subst hxy
  obtain ⟨first, args, phrase, txt, data, obj, a1, a2, a3, a4, a5, a6⟩ := C76_saves hb h13
  refine ⟨s, x, ic, hs, hy, h9, first, args, phrase, data, obj, ?_, a6⟩
  rw [k3] at a5
  have hl : ∀ l, DocLearner (some cs!"ridge") false ic (some x) none l → l = .ridge ic false lambdaGrid (some x) := by
    intro l hd
    generalize hr : some cs!"ridge" = r at hd
    cases hd with
    | ridge => rfl
    | lstsq => simp at hr
    | default hn _ => exact absurd hr.symm hn
  rcases hmm with rfl | rfl
  · generalize hmn : cs!"full_add" = mn at a5
    cases a5 with
    | weighted _ => simp at hmn
    | dilation _ => simp at hmn
    | full h1 h2 => exact .full (hl _ h1) h2
    | lexical _ _ => simp at hmn
  · generalize hmn : cs!"lexical_func" = mn at a5
    cases a5 with
    | weighted _ => simp at hmn
    | dilation _ => simp at hmn
    | full h1 h2 => simp at hmn
    | lexical h1 h2 => exact .lexical (hl _ h1) h2

/-- **C69** (partial) Without cross validation, `--lambda` and `--lambda_range`, ridge regression is refused: exit status 1. -/
theorem C69_no_lambda_partial {L : Lib} {fs fs1 : Fs} {argv : List Str} {st : Settings}
    {model inFile outDir phraseFile : Str} {argFiles : List Str} {ic ex : Bool}
    (hst : cliTrain.parseArgs L.parseCfg fs argv = .ok st) (hlog : configLogging fs (st cs!"log_file").asStr = .ok fs1)
    (hr : st cs!"regression" = .str cs!"ridge")
    (hcv : L.evalBool (st cs!"crossvalidation").strD = .ok (some false))
    (hic : L.evalBool (st cs!"intercept").strD = .ok (some ic)) (hex : L.evalBool (st cs!"export_params").strD = .ok (some ex))
    (hm : st cs!"model" = .str model) (hi : st cs!"in_file" = .str inFile) (ho : st cs!"out_dir" = .str outDir)
    (ha : st cs!"arg_space" = .list argFiles) (hp : st cs!"phrase_space" = .str phraseFile)
    (hpar : (st cs!"param").asStr = none) (hrange : (st cs!"param_range").asList = none) :
    mainTrain L fs argv = .error (.exit 1) := by
  have e : paramsOf L.io none none = .ok (.none, none) := rfl
  simp only [mainTrain, hst, main_ok_bind, hlog, lift_of_ok, hi, ho, hm, ha, hp, asStr_str, asList_list, require_some, hcv,
    hic, hex, requireBool, hpar, hrange, e, hr, checkLambda, if_true, main_error_bind]

/-- **C69** refuted: without cross validation and with a (non-empty) `--lambda_range`, ridge training of either model that
uses a learner never succeeds, whatever value `--lambda` has and whatever the data are: the loop variable of the list
comprehension has replaced the number by a string. -/
theorem C69_refuted {L : Lib} {fs : Fs} {argv : List Str} {st : Settings} {model s : Str} {ss : List Str}
    (hst : cliTrain.parseArgs L.parseCfg fs argv = .ok st) (hr : st cs!"regression" = .str cs!"ridge")
    (hcv : L.evalBool (st cs!"crossvalidation").strD = .ok (some false))
    (hm : st cs!"model" = .str model) (hmm : model = cs!"full_add" ∨ model = cs!"lexical_func")
    (hrange : st cs!"param_range" = .list (s :: ss)) (fs' : Fs) : mainTrain L fs argv ≠ .ok fs' := by
  intro h
  obtain ⟨st', fs1, i, o, m, a, p, cv, ic, ex, param, range, h1, h2, h3, h4, h5, h6, h7, h8, h9, h10, h11, h12, h13⟩ :=
    mainTrain_ok h
  rw [hst] at h1
  injection h1 with h1; subst h1
  rw [hcv] at h8
  simp only [Except.ok.injEq, Option.some.injEq] at h8
  subst h8
  rw [hm] at h5; rw [hr] at h13
  simp only [OptVal.asStr, Option.some.injEq] at h5 h13
  subst h5
  obtain ⟨lam, k1, k2, k3, k4⟩ := paramsOf_ok h11
  obtain ⟨t, rfl⟩ := k4 s ss (by rw [hrange]; rfl)
  obtain ⟨base, hb⟩ : ∃ base, IsBase i base := ⟨_, lastComp_isBase i⟩
  obtain ⟨first, args, phrase, txt, data, obj, a1, a2, a3, a4, a5, a6⟩ := C76_saves hb h13
  have hl : ∀ l, ¬ DocLearner (some cs!"ridge") false ic (ParamVal.text t).number range l := by
    intro l hd
    generalize hr : some cs!"ridge" = r at hd
    generalize hn : (ParamVal.text t).number = n at hd
    cases hd with
    | ridge => cases hn
    | lstsq => simp at hr
    | default hn _ => exact absurd hr.symm hn
  rcases hmm with rfl | rfl
  · generalize hmn : cs!"full_add" = mn at a5
    cases a5 with
    | weighted _ => simp at hmn
    | dilation _ => simp at hmn
    | full h1 h2 => exact hl _ h1
    | lexical _ _ => simp at hmn
  · generalize hmn : cs!"lexical_func" = mn at a5
    cases a5 with
    | weighted _ => simp at hmn
    | dilation _ => simp at hmn
    | full h1 h2 => simp at hmn
    | lexical h1 h2 => exact hl _ h1

/-- The options of `train_composition.py` with the defaults of the code. -/
def trainOpts : List DocOpt := { docCrossvalidation with dflt := .str cs!"False" } :: docTrain

theorem trainOpts_ok : cliTrain.ok trainOpts = true := by decide

/-- A concrete command line that meets the hypotheses of `C69_refuted`. -/
example (L : Lib) (hL : L.evalBool cs!"False" = .ok (some false)) (fs fs' : Fs) :
    mainTrain L fs [cs!"-i", cs!"data.txt", cs!"-o", cs!"out", cs!"-m", cs!"full_add", cs!"-r", cs!"ridge",
      cs!"--lambda=2", cs!"--lambda_range=0,1,2", cs!"-a", cs!"a.pkl", cs!"-p", cs!"p.pkl"] ≠ .ok fs' := by
  obtain ⟨st, h1, h2⟩ := parse_values trainOpts_ok L.parseCfg fs
    [⟨docTrain[0], .shortSep 'i', cs!"data.txt"⟩, ⟨docTrain[1], .shortSep 'o', cs!"out"⟩,
      ⟨docTrain[2], .shortSep 'm', cs!"full_add"⟩, ⟨docTrain[3], .shortSep 'r', cs!"ridge"⟩,
      ⟨docTrain[5], .longEq, cs!"2"⟩, ⟨docTrain[6], .longEq, cs!"0,1,2"⟩, ⟨docTrain[7], .shortSep 'a', cs!"a.pkl"⟩,
      ⟨docTrain[8], .shortSep 'p', cs!"p.pkl"⟩]
    (by
      intro g hg
      simp only [List.mem_cons, List.not_mem_nil, or_false] at hg
      rcases hg with rfl | rfl | rfl | rfl | rfl | rfl | rfl | rfl <;> simp [Given.Valid, docTrain, trainOpts])
    [] (by intro a ha; cases ha) (fun _ => none) rfl
  refine C69_refuted (s := cs!"0") (ss := [cs!"1", cs!"2"]) (model := cs!"full_add") h1 ?_ ?_ ?_ (Or.inl rfl) ?_ fs'
  · exact h2 docTrain[3] (by decide)
  · have := h2 trainOpts[0] (by decide)
    rw [show st cs!"crossvalidation" = .str cs!"False" from this]
    exact hL
  · exact h2 docTrain[2] (by decide)
  · exact h2 docTrain[6] (by decide)

end
end Dissect
