import Verif.Spec.Apply
import Verif.Props.Training
import Verif.Props.CoreSpace

/-! # C77 - C80: `train_composition.py`, `apply_composition.py` -/

namespace Dissect
noncomputable section

theorem loadModel_ok {L : Lib} {fs : Fs} {f : Str} {m : PyObj} : loadModel L fs f = .ok m ↔ HoldsModel L fs f m := by
  unfold loadModel HoldsModel Fs.load
  cases hr : fs.read f with
  | error e => simp
  | ok txt =>
    simp only [ok_bind, Except.ok.injEq, exists_eq_left']
    cases hu : L.undump txt with
    | none => simp
    | some o =>
      cases o with
      | composer c =>
        constructor
        · intro h; obtain rfl := ok_inj h; exact ⟨rfl, Or.inl ⟨_, rfl⟩⟩
        · rintro ⟨h, _⟩; injection h with h; subst h; rfl
      | lexfun c =>
        constructor
        · intro h; obtain rfl := ok_inj h; exact ⟨rfl, Or.inr ⟨_, rfl⟩⟩
        · rintro ⟨h, _⟩; injection h with h; subst h; rfl
      | space c =>
        constructor
        · intro h; cases h
        · rintro ⟨h, ⟨_, h2⟩ | ⟨_, h2⟩⟩ <;> · subst h2; cases h
      | other c =>
        constructor
        · intro h; cases h
        · rintro ⟨h, ⟨_, h2⟩ | ⟨_, h2⟩⟩ <;> · subst h2; cases h

theorem createModel_ok {nm : Str} {alpha beta lam : Option ℝ} {m : PyObj} :
    createModel nm alpha beta lam = .ok m ↔ NamedModel alpha beta lam nm m := by
  constructor
  · intro h
    unfold createModel at h
    split at h
    · rename_i hm
      subst hm
      cases alpha with
      | none => cases beta with
        | none =>
          obtain rfl := ok_inj h
          have := NamedModel.weighted (alpha := none) (beta := none) (lam := lam)
          norm_num at this ⊢
          exact this
        | some b => obtain rfl := ok_inj h; exact .weighted (alpha := none) (beta := some b)
      | some a => cases beta with
        | none => obtain rfl := ok_inj h; exact .weighted (alpha := some a) (beta := none)
        | some b => obtain rfl := ok_inj h; exact .weighted (alpha := some a) (beta := some b)
    · split at h
      · rename_i hm
        subst hm
        cases lam with
        | none => obtain rfl := ok_inj h; exact .dilation (lam := none)
        | some l => obtain rfl := ok_inj h; exact .dilation (lam := some l)
      · split at h
        · rename_i hm
          subst hm
          obtain rfl := ok_inj h
          exact .mult
        · cases h
  · intro h
    cases h with
    | weighted =>
      unfold createModel
      rw [if_pos rfl]
      cases alpha <;> cases beta <;> simp [numArg, newWeighted] <;> norm_num
    | dilation => cases lam <;> rfl
    | mult => rfl

theorem modelObj_ok {L : Lib} {fs : Fs} {model trained : Option Str} {alpha beta lam : Option ℝ} {m : PyObj} :
    modelObj L fs model trained alpha beta lam = .ok m ↔ SelectedModel L fs alpha beta lam model trained m := by
  unfold modelObj SelectedModel
  cases model with
  | some nm => simp [createModel_ok]
  | none => cases trained with
    | none => simp
    | some f => simp [loadModel_ok]

theorem className_of {m : PyObj} {cls : Str} (h : ClassOf m cls) : className m = cls := by cases h <;> rfl

theorem classOf_total {m : PyObj} (h : (∃ c, m = .composer c) ∨ ∃ l, m = .lexfun l) : ClassOf m (className m) := by
  rcases h with ⟨⟨c, i⟩, rfl⟩ | ⟨l, rfl⟩
  · cases c
    · exact .weighted
    · exact .dilation
    · exact .mult
    · exact .full
  · exact .lexical

theorem selected_kind {L : Lib} {fs : Fs} {alpha beta lam : Option ℝ} {model trained : Option Str} {m : PyObj}
    (h : SelectedModel L fs alpha beta lam model trained m) : (∃ c, m = .composer c) ∨ ∃ l, m = .lexfun l := by
  rcases h with ⟨nm, _, h⟩ | ⟨_, f, _, txt, _, _, h⟩
  · cases h <;> exact Or.inl ⟨_, rfl⟩
  · exact h

theorem composeObj_ok {m : PyObj} {data : List (Triple Str)} {arg : Space Str} {arg2 : Option (Space Str)} {res : Space Str} :
    composeObj m data arg arg2 = .ok res ↔ ComposedBy arg (argsOf arg arg2) data res m := by
  constructor
  · intro h
    cases m with
    | composer c =>
      cases arg2 with
      | none => exact .composer (c' := (c.compose data (.one arg)).1) (Prod.ext rfl h)
      | some a => exact .composer (c' := (c.compose data (.tuple [arg, a])).1) (Prod.ext rfl h)
    | lexfun lf => exact .lexical h
    | space s => cases h
    | other n => cases h
  · intro h
    cases h with
    | composer h =>
      cases arg2 with
      | none => exact congrArg Prod.snd h
      | some a => exact congrArg Prod.snd h
    | lexical h => exact h

theorem argsFrom_second {L : Lib} {fs : Fs} {f : Str} {gs : List Str} {s : Space Str} {args : ArgSpace Str}
    (h : ArgsFrom L fs (f :: gs) s args) : ∃ o, loadSpace L fs f = .ok s ∧ loadSecond L fs (f :: gs) = .ok o ∧ args = argsOf s o := by
  cases h with
  | @two _ _ _ t h1 h2 => exact ⟨some t, loadSpace_ok.2 h1, by simp only [loadSecond, loadSpace_ok.2 h2, ok_bind, pure_eq_ok], rfl⟩
  | one h1 hl =>
    refine ⟨none, loadSpace_ok.2 h1, ?_, rfl⟩
    match gs, hl with
    | [], _ => rfl
    | [g], hl => simp at hl
    | _ :: _ :: _, _ => rfl

theorem composedFile_eq {inFile base : Str} (hb : IsBase inFile base) (outDir cls : Str) :
    outDir ++ cs!"/COMPOSED_SS" ++ ['.'] ++ cls ++ ['.'] ++ lastComp inFile = composedFile outDir cls base := by
  rw [lastComp_of_base hb]
  simp [composedFile]

/-- What `apply_model` does. -/
theorem applyModel_ok {L : Lib} {fs fs' : Fs} {inFile base outDir : Str} {model trained : Option Str} {argFiles : List Str}
    {alpha beta lam : Option ℝ} {fmt : Option Str} (hb : IsBase inFile base) :
    applyModel L fs inFile outDir model trained argFiles alpha beta lam fmt = .ok fs' ↔
    ∃ m cls first args txt data res, SelectedModel L fs alpha beta lam model trained m ∧ ClassOf m cls ∧
      ArgsFrom L fs argFiles first args ∧ fs.read inFile = .ok txt ∧ TriplesOf txt data ∧
      ComposedBy first args data res m ∧ printJob L fmt (composedFile outDir cls base, res) fs = .ok fs' := by
  constructor
  · intro h
    unfold applyModel at h
    rw [bind_eq_ok] at h
    obtain ⟨m, hm, h⟩ := h
    split at h
    · cases h
    · rename_i f gs
      simp only [bind_eq_ok] at h
      obtain ⟨arg, h1, arg2, h2, txt, h3, data, h4, res, h5, fs1, h6, h7⟩ := h
      rw [composedFile_eq hb] at h6 h7
      have hsel := modelObj_ok.1 hm
      refine ⟨m, className m, arg, argsOf arg arg2, txt, data, res, hsel, classOf_total (selected_kind hsel),
        loadSecond_args h1 h2, h3, readTriples_ok.1 h4, composeObj_ok.1 h5, ?_⟩
      simp only [printJob, h6, ok_bind, h7]
  · rintro ⟨m, cls, first, args, txt, data, res, hsel, hcls, hargs, hr, ht, hc, hp⟩
    have hf : ∃ f gs, argFiles = f :: gs := by cases hargs <;> exact ⟨_, _, rfl⟩
    obtain ⟨f, gs, rfl⟩ := hf
    obtain ⟨o, l1, l2, rfl⟩ := argsFrom_second hargs
    unfold applyModel
    simp only [modelObj_ok.2 hsel, ok_bind, l1, l2, hr, readTriples_ok.2 ht, composeObj_ok.2 hc, className_of hcls,
      composedFile_eq hb]
    exact hp

/-- **C79** a model name other than the three accepted ones is refused with `ValueError` before anything is read or
written. -/
theorem C79_unknown_model {L : Lib} {fs : Fs} {inFile outDir nm : Str} {trained : Option Str} {argFiles : List Str}
    {alpha beta lam : Option ℝ} {fmt : Option Str}
    (h : nm ∉ [cs!"weighted_add", cs!"dilation", cs!"mult"]) :
    applyModel L fs inFile outDir (some nm) trained argFiles alpha beta lam fmt = .error .valueError := by
  simp only [List.mem_cons, List.not_mem_nil, or_false, not_or] at h
  unfold applyModel
  simp only [modelObj, createModel]
  rw [if_neg h.1, if_neg h.2.1, if_neg h.2.2]
  rfl

/-- non-vacuity of C79_unknown_model -/
example : cs!"weighted_additive" ∉ [cs!"weighted_add", cs!"dilation", cs!"mult"] := by decide

/-- **C79** When `apply_model` returns, `COMPOSED_SS.<class>.<input>.pkl` in the output directory holds the space composed by
the selected model (built with the given parameters, or loaded) from the triples of the input and the argument spaces, and
the additional format, if any, is the export of the same space. -/
theorem C79_saves {L : Lib} {fs fs' : Fs} {inFile base outDir : Str} {model trained : Option Str} {argFiles : List Str}
    {alpha beta lam : Option ℝ} {fmt : Option Str} (hb : IsBase inFile base)
    (h : applyModel L fs inFile outDir model trained argFiles alpha beta lam fmt = .ok fs') :
    ∃ m cls first args txt data res, SelectedModel L fs alpha beta lam model trained m ∧ ClassOf m cls ∧
      ArgsFrom L fs argFiles first args ∧ fs.read inFile = .ok txt ∧ TriplesOf txt data ∧
      ComposedBy first args data res m ∧ Holds L fs fs' fmt (composedFile outDir cls base) res := by
  obtain ⟨m, cls, first, args, txt, data, res, h1, h2, h3, h4, h5, h6, h7⟩ := (applyModel_ok hb).1 h
  exact ⟨m, cls, first, args, txt, data, res, h1, h2, h3, h4, h5, h6,
    holds_of_job h7 rfl (printJob_frame h7).1 (fun e _ => rfl)⟩

/-- **C79** No other file is touched. -/
theorem C79_other_files {L : Lib} {fs fs' : Fs} {inFile base outDir : Str} {model trained : Option Str} {argFiles : List Str}
    {alpha beta lam : Option ℝ} {fmt : Option Str} (hb : IsBase inFile base)
    (h : applyModel L fs inFile outDir model trained argFiles alpha beta lam fmt = .ok fs') {p : Str}
    (hp : ∀ m cls, SelectedModel L fs alpha beta lam model trained m → ClassOf m cls → ∀ e ∈ outExts,
      fs.resolve p ≠ fs.resolve (composedFile outDir cls base ++ ['.'] ++ e)) : fs'.read p = fs.read p := by
  obtain ⟨m, cls, first, args, txt, data, res, h1, h2, h3, h4, h5, h6, h7⟩ := (applyModel_ok hb).1 h
  obtain ⟨a, b⟩ := printJob_frame h7
  exact read_congr a (b _ (fun e he => hp m cls h1 h2 e he))

/-- **C79** Without an additional format the run succeeds whenever the model, the spaces and the triples can be read, the
model composes them, and the output directory exists or can be created. -/
theorem C79_succeeds {L : Lib} {fs : Fs} {inFile base outDir cls txt : Str} {model trained : Option Str} {argFiles : List Str}
    {alpha beta lam : Option ℝ} (hb : IsBase inFile base) {m : PyObj} {first res : Space Str} {args : ArgSpace Str}
    {data : List (Triple Str)} (h1 : SelectedModel L fs alpha beta lam model trained m) (h2 : ClassOf m cls)
    (h3 : ArgsFrom L fs argFiles first args) (h4 : fs.read inFile = .ok txt) (h5 : TriplesOf txt data)
    (h6 : ComposedBy first args data res m) (ho : OutDir fs (fs.resolve (outDir ++ ['/'])))
    (hfree : fs.resolve (composedFile outDir cls base ++ cs!".pkl") ∉ fs.dirs) :
    ∃ fs', applyModel L fs inFile outDir model trained argFiles alpha beta lam none = .ok fs' := by
  have hcls : '/' ∉ cls := by cases h2 <;> decide
  have hq : composedFile outDir cls base ++ cs!".pkl" = outDir ++ '/' :: (cs!"COMPOSED_SS." ++ cls ++ ['.'] ++ base ++ cs!".pkl") := by
    simp [composedFile]
  have hbn := hb.1
  rw [hq] at hfree
  obtain ⟨fs', hs, _⟩ := ho.save (nm := cs!"COMPOSED_SS." ++ cls ++ ['.'] ++ base ++ cs!".pkl") (c := L.dump (.space res))
    (by simp [hcls, hbn]) (by simp) (by simp) hfree
  refine ⟨fs', (applyModel_ok hb).2 ⟨m, cls, first, args, txt, data, res, h1, h2, h3, h4, h5, h6, ?_⟩⟩
  simp only [printJob, hq, hs, ok_bind, exportOpt]

/-- **C79** Both of `--model` and `--load_model`, or neither: exit status 1 (when the input and output are given). -/
theorem C79_xor {L : Lib} {fs fs1 : Fs} {argv : List Str} {st : Settings} {inFile outDir : Str}
    (hst : cliApply.parseArgs L.parseCfg fs argv = .ok st) (hlog : configLogging fs (st cs!"log_file").asStr = .ok fs1)
    (hi : st cs!"in_file" = .str inFile) (ho : st cs!"out_dir" = .str outDir)
    (hx : (st cs!"model").asStr.isSome = (st cs!"trained_model").asStr.isSome) :
    mainApply L fs argv = .error (.exit 1) := by
  simp only [mainApply, hst, main_ok_bind, hlog, lift_of_ok, hi, ho, asStr_str, require_some, requireXor, hx, ne_eq,
    not_true_eq_false, if_false, main_error_bind]

/-! ### C80 -/

/-- **C80** After `train_model` has stored a model, `apply_model` with that file (the file not being changed in between)
composes with exactly the trained model. `hdump`: unpickling the stored file gives back the object that was pickled into
it (asked for this file only: no function to strings can be undone for all real matrices). -/
theorem C80_chain {L : Lib} {fs fs1 fs2 fs3 : Fs} {inFile base outDir model phraseFile : Str} {argFiles : List Str}
    {regression : Option Str} {cv ic ex : Bool} {param : ParamVal} {range : Option (List ℝ)}
    (hdump : ∀ o, fs1.read (trainedFile outDir model base ++ cs!".pkl") = .ok (L.dump o) → L.undump (L.dump o) = some o)
    (hb : IsBase inFile base)
    (h : trainModel L fs inFile outDir model argFiles phraseFile regression cv ic param range ex = .ok fs1)
    (hbetween : fs2.read (trainedFile outDir model base ++ cs!".pkl") = fs1.read (trainedFile outDir model base ++ cs!".pkl"))
    {inFile' base' outDir' : Str} {argFiles' : List Str} {alpha beta lam : Option ℝ} {fmt : Option Str}
    (hb' : IsBase inFile' base')
    (h' : applyModel L fs2 inFile' outDir' none (some (trainedFile outDir model base ++ cs!".pkl")) argFiles' alpha beta lam fmt
      = .ok fs3) :
    ∃ first args phrase txt data obj, ArgsFrom L fs argFiles first args ∧ HoldsSpace L fs phraseFile phrase ∧
      fs.read inFile = .ok txt ∧ TriplesOf txt data ∧
      Trained L.env (DocLearner regression cv ic param.number range) first args phrase data model obj ∧
      ∃ cls first' args' txt' data' res, ClassOf obj cls ∧ ArgsFrom L fs2 argFiles' first' args' ∧
        fs2.read inFile' = .ok txt' ∧ TriplesOf txt' data' ∧ ComposedBy first' args' data' res obj ∧
        fs3.read (composedFile outDir' cls base' ++ cs!".pkl") = .ok (L.dump (.space res)) := by
  obtain ⟨first, args, phrase, txt, data, obj, a1, a2, a3, a4, a5, a6⟩ := C76_saves hb h
  obtain ⟨m, cls, first', args', txt', data', res, b1, b2, b3, b4, b5, b6, b7⟩ := C79_saves hb' h'
  have : m = obj := by
    rcases b1 with ⟨nm, hn, _⟩ | ⟨_, f, hf, t, ht, hu, _⟩
    · cases hn
    · injection hf with hf
      subst hf
      rw [hbetween, a6] at ht
      obtain rfl := ok_inj ht
      rw [hdump obj a6] at hu
      injection hu with hu
      exact hu.symm
  subst this
  exact ⟨first, args, phrase, txt, data, m, a1, a2, a3, a4, a5, cls, first', args', txt', data', res, b2, b3, b4, b5, b6, b7.pickle⟩

end
end Dissect
