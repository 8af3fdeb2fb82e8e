import Verif.Lemmas.CrashSafe
import Verif.Props.Cli
import Verif.Props.RoundTrip

/-! # C84, C85, C87: how the scripts end -/

namespace Dissect
noncomputable section

/-! ### C84: a missing required option -/

/-- The run stops with exit status 1 without touching the disk. -/
structure Stops (fs : Fs) (r : Run MainErr) : Prop where
  seen : ∀ g, r.seen g → g = fs
  out : ∃ e, r.out = .error e ∧ e.status = 1

theorem Stops.compute {α : Type} {fs : Fs} {x : Main α} {k : α → Run MainErr} (hx : ∀ e, x = .error e → e.status = 1)
    (hk : ∀ a, x = .ok a → Stops fs (k a)) : Stops fs (Run.compute fs x k) := by
  constructor
  · rintro g (hg | ⟨a, ha, hg⟩)
    · exact hg
    · exact (hk a ha).seen g hg
  · cases x with
    | error e => exact ⟨e, rfl, hx e rfl⟩
    | ok a => exact (hk a rfl).out

theorem require_status {α : Type} {x : Option α} : ∀ e, require x = .error e → e.status = 1 := by
  intro e h
  cases x with
  | none => injection h with h; subst h; rfl
  | some a => cases h

theorem requireXor_status {a b : Option Str} : ∀ e, requireXor a b = .error e → e.status = 1 := by
  intro e h
  unfold requireXor at h
  split at h
  · cases h
  · injection h with h; subst h; rfl

theorem checkLambda_status {cv : Bool} {r : Option Str} {p : ParamVal} :
    ∀ e, checkLambda cv r p = .error e → e.status = 1 := by
  intro e h
  unfold checkLambda at h
  repeat' split at h
  all_goals first
    | (injection h with h; subst h; rfl)
    | cases h

theorem lift_status {α : Type} {x : Py α} : ∀ e, Main.lift x = .error e → e.status = 1 := by
  intro e h
  cases x with
  | error e' => injection h with h; subst h; rfl
  | ok a => cases h

/-- A missing value stops the run. -/
theorem Stops.missing {α : Type} {fs : Fs} {x : Option α} {k : α → Run MainErr} (hx : x = none) :
    Stops fs (Run.compute fs (require x) k) := by
  subst hx
  exact .compute require_status (fun a ha => by cases ha)

theorem log_safe (fs : Fs) (log : Option Str) :
    CrashSafe fs (fun n c => ∃ f, log = some f ∧ n = fs.resolve f ∧ c = []) (fun n => ∃ f, log = some f ∧ n = fs.resolve f)
      (configLoggingR fs log) := by
  unfold configLoggingR
  cases log with
  | none => exact .done (NoneBroken.refl fs)
  | some f =>
    refine .andThen (.createParentR (NoneBroken.refl fs)) (fun fs1 _ h1 => ?_)
    split
    · exact .done h1
    · exact .writeR h1 ⟨f, rfl, rfl⟩ (fun c hc => by cases hc; exact ⟨f, rfl, rfl, rfl⟩)

theorem log_seen {fs g : Fs} {log : Option Str} (h : (configLoggingR fs log).seen g) {p : Str}
    (hp : ∀ f, log = some f → fs.resolve p ≠ fs.resolve f) : g.read p = fs.read p := by
  obtain ⟨h1, _, q, h3⟩ := (log_safe fs log).seen g h
  refine read_congr h1 ?_
  rcases h3 (fs.resolve p) with h | ⟨c, ⟨f, hf, hn, _⟩, _⟩ | ⟨_, f, hf, hn⟩
  · exact h
  · exact absurd hn (hp f hf)
  · exact absurd hn (hp f hf)

theorem log_out {fs g : Fs} {log : Option Str} (h : (configLoggingR fs log).out = .ok g) {p : Str}
    (hp : ∀ f, log = some f → fs.resolve p ≠ fs.resolve f) : g.read p = fs.read p := by
  obtain ⟨h1, _, h3⟩ := (log_safe fs log).out g h
  refine read_congr h1 ?_
  rcases h3 (fs.resolve p) with h | ⟨c, ⟨f, hf, hn, _⟩, _⟩
  · exact h
  · exact absurd hn (hp f hf)

/-- A script that stops after option processing and the configuration of the log. -/
theorem ends_of_stops {c : Cli} {parse : Str → Py Config} {fs : Fs} {argv : List Str} {st : Settings}
    {k : Settings → Fs → Run MainErr} (hst : c.parseArgs parse fs argv = .ok st) (hk : ∀ fs1, Stops fs1 (k st fs1)) :
    EndsWith fs (st cs!"log_file").asStr 1 (Run.compute fs (c.parseArgs parse fs argv) fun st =>
      (configLoggingR fs (st cs!"log_file").asStr).lift.andThen fun fs1 => k st fs1) := by
  constructor
  · rw [Run.compute_out, hst]
    show ∃ e, ((configLoggingR fs (st cs!"log_file").asStr).lift.andThen fun fs1 => k st fs1).out = .error e ∧ _
    rw [Run.andThen_out, Run.lift_out]
    cases hl : (configLoggingR fs (st cs!"log_file").asStr).out with
    | error e => exact ⟨.raised e, rfl, rfl⟩
    | ok fs1 => exact (hk fs1).out
  · rintro g hg p hp
    rcases hg with rfl | ⟨st', hst', hg⟩
    · rfl
    · rw [hst] at hst'
      injection hst' with hst'
      subst hst'
      rcases hg with hg | ⟨fs1, h1, hg⟩
      · exact log_seen hg hp
      · obtain rfl := (hk fs1).seen g hg
        exact log_out (lift_ok.1 h1) hp

theorem asStr_none {v : OptVal} (h : v = .none) : v.asStr = none := by subst h; rfl
theorem asList_none {v : OptVal} (h : v = .none) : v.asList = none := by subst h; rfl

/-- **C84** `build_core_space.py` with no input, output directory or input format. -/
theorem C84_build_core_space {L : Lib} {fs : Fs} {argv : List Str} {st : Settings}
    (hst : cliCore.parseArgs L.parseCfg fs argv = .ok st)
    (h : ∃ v ∈ [cs!"in_file_prefix", cs!"out_dir", cs!"in_format"], st v = .none) :
    EndsWith fs (st cs!"log_file").asStr 1 (mainCoreR L fs argv) := by
  refine ends_of_stops hst (fun fs1 => ?_)
  obtain ⟨v, hv, hn⟩ := h
  simp only [List.mem_cons, List.not_mem_nil, or_false] at hv
  rcases hv with rfl | rfl | rfl
  · exact .missing (asStr_none hn)
  · exact .compute require_status (fun _ _ => .missing (asStr_none hn))
  · exact .compute require_status (fun _ _ => .compute require_status (fun _ _ => .missing (asStr_none hn)))

/-- **C84** `build_peripheral_space.py` with no input, output directory, input format, or neither core space nor directory of
core spaces. -/
theorem C84_build_peripheral_space {L : Lib} {fs : Fs} {argv : List Str} {st : Settings}
    (hst : cliPeriph.parseArgs L.parseCfg fs argv = .ok st)
    (h : (∃ v ∈ [cs!"in_file_prefix", cs!"out_dir", cs!"in_format"], st v = .none) ∨
      (st cs!"core_in_dir" = .none ∧ st cs!"core_space_file" = .none)) :
    EndsWith fs (st cs!"log_file").asStr 1 (mainPeriphR L fs argv) := by
  refine ends_of_stops hst (fun fs1 => ?_)
  rcases h with ⟨v, hv, hn⟩ | ⟨h1, h2⟩
  · simp only [List.mem_cons, List.not_mem_nil, or_false] at hv
    rcases hv with rfl | rfl | rfl
    · exact .missing (asStr_none hn)
    · exact .compute require_status (fun _ _ => .missing (asStr_none hn))
    · exact .compute require_status (fun _ _ => .compute require_status (fun _ _ => .missing (asStr_none hn)))
  · refine .compute require_status (fun _ _ => .compute require_status (fun _ _ => .compute require_status (fun _ _ =>
      .compute lift_status (fun _ _ => .compute require_status (fun _ _ => ?_)))))
    simp only [asStr_none h1]
    exact .missing (asStr_none h2)

/-- **C84** `compute_similarities.py` with no input, output directory, measure, columns, or neither space nor directory. -/
theorem C84_compute_similarities {L : Lib} {fs : Fs} {argv : List Str} {st : Settings}
    (hst : cliSims.parseArgs L.parseCfg fs argv = .ok st)
    (h : (∃ v ∈ [cs!"in_file", cs!"out_dir", cs!"sim_measures", cs!"columns"], st v = .none) ∨
      (st cs!"in_dir" = .none ∧ st cs!"spaces" = .none)) :
    EndsWith fs (st cs!"log_file").asStr 1 (mainSimsR L fs argv) := by
  refine ends_of_stops hst (fun fs1 => ?_)
  rcases h with ⟨v, hv, hn⟩ | ⟨h1, h2⟩
  · simp only [List.mem_cons, List.not_mem_nil, or_false] at hv
    rcases hv with rfl | rfl | rfl | rfl
    · exact .missing (asStr_none hn)
    · exact .compute require_status (fun _ _ => .missing (asStr_none hn))
    · exact .compute require_status (fun _ _ => .compute require_status (fun _ _ => .missing (asList_none hn)))
    · exact .compute require_status (fun _ _ => .compute require_status (fun _ _ => .compute require_status (fun _ _ =>
        .missing (asList_none hn))))
  · refine .compute require_status (fun _ _ => .compute require_status (fun _ _ => .compute require_status (fun _ _ =>
      .compute require_status (fun _ _ => ?_))))
    simp only [asStr_none h1]
    exact .missing (asList_none h2)

/-- **C84** `compute_neighbours.py` with no input, output directory, measure or space. -/
theorem C84_compute_neighbours {L : Lib} {fs : Fs} {argv : List Str} {st : Settings}
    (hst : cliNeigh.parseArgs L.parseCfg fs argv = .ok st)
    (h : ∃ v ∈ [cs!"in_file", cs!"out_dir", cs!"sim_measure", cs!"spaces"], st v = .none) :
    EndsWith fs (st cs!"log_file").asStr 1 (mainNeighR L fs argv) := by
  refine ends_of_stops hst (fun fs1 => ?_)
  obtain ⟨v, hv, hn⟩ := h
  simp only [List.mem_cons, List.not_mem_nil, or_false] at hv
  refine .compute lift_status (fun _ _ => ?_)
  rcases hv with rfl | rfl | rfl | rfl
  · exact .missing (asStr_none hn)
  · exact .compute require_status (fun _ _ => .missing (asStr_none hn))
  · exact .compute require_status (fun _ _ => .compute require_status (fun _ _ => .missing (asStr_none hn)))
  · exact .compute require_status (fun _ _ => .compute require_status (fun _ _ => .compute require_status (fun _ _ =>
      .missing (asList_none hn))))

/-- **C84** `train_composition.py` with no input, output directory, model, argument space or phrase space. -/
theorem C84_train_composition {L : Lib} {fs : Fs} {argv : List Str} {st : Settings}
    (hst : cliTrain.parseArgs L.parseCfg fs argv = .ok st)
    (h : ∃ v ∈ [cs!"in_file", cs!"out_dir", cs!"model", cs!"arg_space", cs!"phrase_space"], st v = .none) :
    EndsWith fs (st cs!"log_file").asStr 1 (mainTrainR L fs argv) := by
  refine ends_of_stops hst (fun fs1 => ?_)
  obtain ⟨v, hv, hn⟩ := h
  simp only [List.mem_cons, List.not_mem_nil, or_false] at hv
  rcases hv with rfl | rfl | rfl | rfl | rfl
  · exact .missing (asStr_none hn)
  · exact .compute require_status (fun _ _ => .missing (asStr_none hn))
  · exact .compute require_status (fun _ _ => .compute require_status (fun _ _ => .missing (asStr_none hn)))
  · exact .compute require_status (fun _ _ => .compute require_status (fun _ _ => .compute require_status (fun _ _ =>
      .missing (asList_none hn))))
  · exact .compute require_status (fun _ _ => .compute require_status (fun _ _ => .compute require_status (fun _ _ =>
      .compute require_status (fun _ _ => .missing (asStr_none hn)))))

/-- **C84** `apply_composition.py` with no input, output directory or argument space, or with not exactly one of `--model` and
`--load_model`. -/
theorem C84_apply_composition {L : Lib} {fs : Fs} {argv : List Str} {st : Settings}
    (hst : cliApply.parseArgs L.parseCfg fs argv = .ok st)
    (h : (∃ v ∈ [cs!"in_file", cs!"out_dir", cs!"arg_space"], st v = .none) ∨
      (st cs!"model" = .none ∧ st cs!"trained_model" = .none) ∨
      ((∃ a, st cs!"model" = .str a) ∧ ∃ b, st cs!"trained_model" = .str b)) :
    EndsWith fs (st cs!"log_file").asStr 1 (mainApplyR L fs argv) := by
  refine ends_of_stops hst (fun fs1 => ?_)
  have hx : ∀ (a b : Option Str), a.isSome = b.isSome → ∀ u, requireXor a b ≠ .ok u := by
    intro a b hab u hu
    unfold requireXor at hu
    rw [if_neg (by simpa using hab)] at hu
    cases hu
  rcases h with ⟨v, hv, hn⟩ | ⟨h1, h2⟩ | ⟨⟨a, h1⟩, b, h2⟩
  · simp only [List.mem_cons, List.not_mem_nil, or_false] at hv
    rcases hv with rfl | rfl | rfl
    · exact .missing (asStr_none hn)
    · exact .compute require_status (fun _ _ => .missing (asStr_none hn))
    · exact .compute require_status (fun _ _ => .compute require_status (fun _ _ => .compute requireXor_status (fun _ _ =>
        .missing (asList_none hn))))
  · refine .compute require_status (fun _ _ => .compute require_status (fun _ _ => .compute requireXor_status (fun u hu => ?_)))
    exact absurd hu (hx _ _ (by rw [h1, h2]) u)
  · refine .compute require_status (fun _ _ => .compute require_status (fun _ _ => .compute requireXor_status (fun u hu => ?_)))
    exact absurd hu (hx _ _ (by rw [h1, h2]; rfl) u)

/-- **C84** `evaluate_similarities.py` with no measure or columns, or neither input nor directory. -/
theorem C84_evaluate_similarities {L : Lib} {fs : Fs} {argv : List Str} {st : Settings}
    (hst : cliEval.parseArgs L.parseCfg fs argv = .ok st)
    (h : (∃ v ∈ [cs!"corr_measures", cs!"columns"], st v = .none) ∨ (st cs!"in_dir" = .none ∧ st cs!"in_file" = .none)) :
    EndsWith fs (st cs!"log_file").asStr 1 (mainEvalR L fs argv) := by
  refine ends_of_stops hst (fun fs1 => ?_)
  have hmain : ∀ e, mainEval L fs argv = .error e → e.status = 1 := by
    intro e he
    unfold mainEval at he
    rw [hst] at he
    change (Main.lift (configLogging fs (st cs!"log_file").asStr) >>= _) = _ at he
    cases hl : configLogging fs (st cs!"log_file").asStr with
    | error e' => rw [hl] at he; injection he with he; subst he; rfl
    | ok fs1 =>
      rw [hl] at he
      change (require (st cs!"corr_measures").asList >>= _) = _ at he
      cases hm : (st cs!"corr_measures").asList with
      | none => rw [hm] at he; injection he with he; subst he; rfl
      | some m =>
        rw [hm] at he
        change (require (st cs!"columns").asList >>= _) = _ at he
        cases hc : (st cs!"columns").asList with
        | none => rw [hc] at he; injection he with he; subst he; rfl
        | some c =>
          rw [hc] at he
          change (if c.length ≠ 2 then _ else _) = _ at he
          split at he
          · injection he with he; subst he; rfl
          · split at he
            · exact lift_status e he
            · change (require (st cs!"in_file").asStr >>= _) = _ at he
              cases hi : (st cs!"in_file").asStr with
              | none => rw [hi] at he; injection he with he; subst he; rfl
              | some f =>
                rw [hi] at he
                change (Main.lift (evaluateSim L fs1 f c m) >>= _) = _ at he
                cases hv : evaluateSim L fs1 f c m with
                | error e' => rw [hv] at he; injection he with he; subst he; rfl
                | ok r => rw [hv] at he; cases he
  refine .compute hmain (fun r hr => ?_)
  exfalso
  unfold mainEval at hr
  obtain ⟨st', hst', hr⟩ := except_bind_ok hr
  rw [hst] at hst'
  injection hst' with hst'
  subst hst'
  obtain ⟨fs1, _, hr⟩ := except_bind_ok hr
  obtain ⟨m, hm, hr⟩ := except_bind_ok hr
  obtain ⟨c, hc, hr⟩ := except_bind_ok hr
  rcases h with ⟨v, hv, hn⟩ | ⟨h1, h2⟩
  · simp only [List.mem_cons, List.not_mem_nil, or_false] at hv
    rcases hv with rfl | rfl
    · rw [asList_none hn] at hm; cases hm
    · rw [asList_none hn] at hc; cases hc
  · split at hr
    · cases hr
    · rw [asStr_none h1] at hr
      simp only [asStr_none h2] at hr
      cases hr

/-! ### The seven scripts together -/

/-- A script: its options, the documented ones, the long names of those it cannot do without, and its run. -/
structure Script where
  cli : Cli
  docs : List DocOpt
  required : List Str
  run : Lib → Fs → List Str → Run MainErr

/-- The scripts of `src/pipelines`. -/
def scripts : List Script :=
  [⟨cliCore, docCore, [cs!"input", cs!"output", cs!"input_format"], mainCoreR⟩,
   ⟨cliPeriph, docPeriph, [cs!"input", cs!"output", cs!"input_format"], mainPeriphR⟩,
   ⟨cliTrain, docTrain, [cs!"input", cs!"output", cs!"model", cs!"arg_space", cs!"phrase_space"], mainTrainR⟩,
   ⟨cliApply, docApply, [cs!"input", cs!"output", cs!"arg_space"], mainApplyR⟩,
   ⟨cliSims, docSims, [cs!"input", cs!"output", cs!"columns"], mainSimsR⟩,
   ⟨cliNeigh, docNeigh, [cs!"input", cs!"output", cs!"space"], mainNeighR⟩,
   ⟨cliEval, docEval, [cs!"correlation_measure", cs!"columns"], mainEvalR⟩]

/-- Every run starts with option processing, and then the log is configured. -/
theorem script_shape {s : Script} (hs : s ∈ scripts) (L : Lib) (fs : Fs) (argv : List Str) :
    ∃ k : Settings → Fs → Run MainErr, s.run L fs argv = Run.compute fs (s.cli.parseArgs L.parseCfg fs argv) fun st =>
      (configLoggingR fs (st cs!"log_file").asStr).lift.andThen fun fs1 => k st fs1 := by
  simp only [scripts, List.mem_cons, List.not_mem_nil, or_false] at hs
  rcases hs with rfl | rfl | rfl | rfl | rfl | rfl | rfl <;> exact ⟨_, rfl⟩

theorem scripts_documented {s : Script} (hs : s ∈ scripts) : (s.cli, s.docs) ∈ documentedScripts := by
  simp only [scripts, List.mem_cons, List.not_mem_nil, or_false] at hs
  rcases hs with rfl | rfl | rfl | rfl | rfl | rfl | rfl <;> simp [documentedScripts]

/-- The log file that the user asked for, or the default one. -/
def wantedLog (s : Script) (gs : List Given) (cfg : Str → Option Str) : Option Str :=
  match s.docs.find? (fun o => decide (o.long = cs!"log")) with
  | some o => (wanted gs cfg o).asStr
  | none => none

theorem log_doc {s : Script} (hs : s ∈ scripts) {gs : List Given} {cfg : Str → Option Str} {st : Settings}
    (h : ∀ o ∈ s.docs, st o.var = wanted gs cfg o) : wantedLog s gs cfg = (st cs!"log_file").asStr := by
  simp only [scripts, List.mem_cons, List.not_mem_nil, or_false] at hs
  rcases hs with rfl | rfl | rfl | rfl | rfl | rfl | rfl
  · have := h docCore[6] (by simp [docCore]); rw [show docCore[6].var = cs!"log_file" from rfl] at this; rw [this]; rfl
  · have := h docPeriph[5] (by simp [docPeriph]); rw [show docPeriph[5].var = cs!"log_file" from rfl] at this; rw [this]; rfl
  · have := h docTrain[10] (by simp [docTrain]); rw [show docTrain[10].var = cs!"log_file" from rfl] at this; rw [this]; rfl
  · have := h docApply[9] (by simp [docApply]); rw [show docApply[9].var = cs!"log_file" from rfl] at this; rw [this]; rfl
  · have := h docSims[5] (by simp [docSims]); rw [show docSims[5].var = cs!"log_file" from rfl] at this; rw [this]; rfl
  · have := h docNeigh[4] (by simp [docNeigh]); rw [show docNeigh[4].var = cs!"log_file" from rfl] at this; rw [this]; rfl
  · have := h docEval[5] (by simp [docEval]); rw [show docEval[5].var = cs!"log_file" from rfl] at this; rw [this]; rfl

/-- **C84** For every script and every list of documented options, in any spelling, and any configuration file: if one of
the required options is set neither on the command line nor in the configuration file, the script exits with status 1 and
no file but the log is touched. -/
theorem C84_missing_option {s : Script} (hs : s ∈ scripts) {L : Lib} {fs : Fs} {gs : List Given}
    (hg : ∀ g ∈ gs, g.Valid s.docs) {tail : List Str} (ht : Positional tail) {cfg : Str → Option Str}
    (hcfg : ConfigSeen s.cli L.parseCfg fs tail cfg) {name : Str} (hr : name ∈ s.required)
    (hmiss : ∀ g ∈ gs, g.opt.long ≠ name) (hc : cfg name = none) :
    EndsWith fs (wantedLog s gs cfg) 1 (s.run L fs ((gs.map Given.render).flatten ++ tail)) := by
  obtain ⟨st, h1, h2⟩ := parse_values (documentedScripts_ok _ (scripts_documented hs)) L.parseCfg fs gs hg tail ht cfg hcfg
  rw [log_doc hs h2]
  have hw : ∀ o ∈ s.docs, o.long = name → o.dflt = .none → st o.var = .none := by
    rintro o ho rfl hd
    have hl : lastGiven gs o = none := by
      have : gs.filter (fun g => decide (g.opt.long = o.long)) = [] := by
        rw [List.filter_eq_nil_iff]
        intro g hg'
        simpa using hmiss g hg'
      simp [lastGiven, this]
    rw [h2 o ho]
    simp [wanted, hl, hc, hd]
  clear hcfg h2 hg
  simp only [scripts, List.mem_cons, List.not_mem_nil, or_false] at hs
  rcases hs with rfl | rfl | rfl | rfl | rfl | rfl | rfl <;>
    simp only [List.mem_cons, List.not_mem_nil, or_false] at hr
  · refine C84_build_core_space h1 ?_
    rcases hr with rfl | rfl | rfl
    · exact ⟨(docCore[0]).var, by decide, hw docCore[0] (by simp [docCore]) rfl rfl⟩
    · exact ⟨(docCore[1]).var, by decide, hw docCore[1] (by simp [docCore]) rfl rfl⟩
    · exact ⟨(docCore[7]).var, by decide, hw docCore[7] (by simp [docCore]) rfl rfl⟩
  · refine C84_build_peripheral_space h1 (.inl ?_)
    rcases hr with rfl | rfl | rfl
    · exact ⟨(docPeriph[0]).var, by decide, hw docPeriph[0] (by simp [docPeriph]) rfl rfl⟩
    · exact ⟨(docPeriph[1]).var, by decide, hw docPeriph[1] (by simp [docPeriph]) rfl rfl⟩
    · exact ⟨(docPeriph[6]).var, by decide, hw docPeriph[6] (by simp [docPeriph]) rfl rfl⟩
  · refine C84_train_composition h1 ?_
    rcases hr with rfl | rfl | rfl | rfl | rfl
    · exact ⟨(docTrain[0]).var, by decide, hw docTrain[0] (by simp [docTrain]) rfl rfl⟩
    · exact ⟨(docTrain[1]).var, by decide, hw docTrain[1] (by simp [docTrain]) rfl rfl⟩
    · exact ⟨(docTrain[2]).var, by decide, hw docTrain[2] (by simp [docTrain]) rfl rfl⟩
    · exact ⟨(docTrain[7]).var, by decide, hw docTrain[7] (by simp [docTrain]) rfl rfl⟩
    · exact ⟨(docTrain[8]).var, by decide, hw docTrain[8] (by simp [docTrain]) rfl rfl⟩
  · refine C84_apply_composition h1 (.inl ?_)
    rcases hr with rfl | rfl | rfl
    · exact ⟨(docApply[0]).var, by decide, hw docApply[0] (by simp [docApply]) rfl rfl⟩
    · exact ⟨(docApply[1]).var, by decide, hw docApply[1] (by simp [docApply]) rfl rfl⟩
    · exact ⟨(docApply[7]).var, by decide, hw docApply[7] (by simp [docApply]) rfl rfl⟩
  · refine C84_compute_similarities h1 (.inl ?_)
    rcases hr with rfl | rfl | rfl
    · exact ⟨(docSims[0]).var, by decide, hw docSims[0] (by simp [docSims]) rfl rfl⟩
    · exact ⟨(docSims[1]).var, by decide, hw docSims[1] (by simp [docSims]) rfl rfl⟩
    · exact ⟨(docSims[4]).var, by decide, hw docSims[4] (by simp [docSims]) rfl rfl⟩
  · refine C84_compute_neighbours h1 ?_
    rcases hr with rfl | rfl | rfl
    · exact ⟨(docNeigh[0]).var, by decide, hw docNeigh[0] (by simp [docNeigh]) rfl rfl⟩
    · exact ⟨(docNeigh[1]).var, by decide, hw docNeigh[1] (by simp [docNeigh]) rfl rfl⟩
    · exact ⟨(docNeigh[2]).var, by decide, hw docNeigh[2] (by simp [docNeigh]) rfl rfl⟩
  · refine C84_evaluate_similarities h1 (.inl ?_)
    rcases hr with rfl | rfl
    · exact ⟨(docEval[3]).var, by decide, hw docEval[3] (by simp [docEval]) rfl rfl⟩
    · exact ⟨(docEval[4]).var, by decide, hw docEval[4] (by simp [docEval]) rfl rfl⟩

/-- The hypotheses are met by `-i in --log=d/x.log` given to `build_core_space.py`: no output directory. -/
example {L : Lib} (fs : Fs) : EndsWith fs (some cs!"d/x.log") 1
    (mainCoreR L fs [cs!"-i", cs!"in", cs!"--log=d/x.log"]) :=
  C84_missing_option (s := scripts[0]) (by simp [scripts])
    (gs := [⟨docCore[0], .shortSep 'i', cs!"in"⟩, ⟨docCore[6], .longEq, cs!"d/x.log"⟩])
    (by intro g hg; simp only [List.mem_cons, List.not_mem_nil, or_false] at hg
        rcases hg with rfl | rfl <;> simp [Given.Valid, docCore, scripts])
    (tail := []) (by intro a ha; cases ha) (cfg := fun _ => none) (by simp [ConfigSeen]) (name := cs!"output")
    (by simp [scripts])
    (by intro g hg; simp only [List.mem_cons, List.not_mem_nil, or_false] at hg
        rcases hg with rfl | rfl <;> simp [docCore]) rfl

/-- The options of a script other than the documented ones are as the configuration file or the defaults have them. -/
theorem parse_other {c : Cli} {docs : List DocOpt} (hok : c.ok docs = true) {parse : Str → Py Config} {fs : Fs}
    {gs : List Given} (hg : ∀ g ∈ gs, g.Valid docs) {tail : List Str} (ht : Positional tail) {cfg : Str → Option Str}
    (hcfg : ConfigSeen c parse fs tail cfg) {row : OptRow} (hx : ∀ o ∈ docs, o.var ≠ row.var)
    (hr : c.rows.find? (fun r => decide (r.var = row.var)) = some row) (hn : cfg row.cfg = none) (hd : row.dflt = .none)
    {st : Settings} (hst : c.parseArgs parse fs ((gs.map Given.render).flatten ++ tail) = .ok st) :
    st row.var = .none := by
  unfold Cli.parseArgs at hst
  rw [getopt_givens hok (getopt_positional ht) hg] at hst
  obtain ⟨st0, h0, h1⟩ := except_bind_ok hst
  rw [optLoop_other hok hx hg h1]
  have hdef : c.defaults row.var = .none := by
    unfold Cli.defaults; rw [hr]; exact hd
  unfold ConfigSeen at hcfg
  split at hcfg
  · rcases hcfg with ⟨txt, g, h2, h3, rfl⟩ | ⟨⟨e, h2⟩, h3, rfl⟩
    · simp only [Cli.initial, h2, h3] at h0
      injection h0 with h0
      subst h0
      unfold Cli.fromConfig
      rw [hr]
      simp only [hn]
      exact hd
    · simp only [Cli.initial, h2, h3] at h0
      injection h0 with h0
      subst h0
      exact hdef
  · rename_i hne
    have : c.initial parse fs tail = .ok c.defaults := by
      unfold Cli.initial
      split
      · rename_i f; exact absurd rfl (hne f)
      · rfl
    rw [this] at h0
    injection h0 with h0
    subst h0
    exact hdef

/-- **C84** The measure is required too: without `-m` and without a measure in the configuration file, `compute_similarities`
and `compute_neighbours` exit with status 1. -/
theorem C84_missing_measure {s : Script} {key : Str}
    (hs : (s = scripts[4] ∧ key = cs!"sim_measures") ∨ (s = scripts[5] ∧ key = cs!"sim_measure")) {L : Lib}
    {fs : Fs} {gs : List Given} (hg : ∀ g ∈ gs, g.Valid s.docs) {tail : List Str} (ht : Positional tail)
    {cfg : Str → Option Str} (hcfg : ConfigSeen s.cli L.parseCfg fs tail cfg) (hc : cfg key = none) :
    EndsWith fs (wantedLog s gs cfg) 1 (s.run L fs ((gs.map Given.render).flatten ++ tail)) := by
  have hmem : s ∈ scripts := by rcases hs with ⟨rfl, _⟩ | ⟨rfl, _⟩ <;> simp [scripts]
  obtain ⟨st, h1, h2⟩ := parse_values (documentedScripts_ok _ (scripts_documented hmem)) L.parseCfg fs gs hg tail ht cfg hcfg
  rw [log_doc hmem h2]
  rcases hs with ⟨rfl, rfl⟩ | ⟨rfl, rfl⟩
  · exact C84_compute_similarities h1 (.inl ⟨cs!"sim_measures", by simp,
      parse_other (documentedScripts_ok _ (scripts_documented hmem)) hg ht hcfg (row := cliSims.rows[3])
        (by decide +kernel) rfl hc rfl h1⟩)
  · exact C84_compute_neighbours h1 ⟨cs!"sim_measure", by simp,
      parse_other (documentedScripts_ok _ (scripts_documented hmem)) hg ht hcfg (row := cliNeigh.rows[2])
        (by decide +kernel) rfl hc rfl h1⟩

/-! ### C87: help -/

/-- `-h` and `--help` take no value, in any of the scripts, and no branch of the option loop handles them. -/
theorem help_ok : ∀ s ∈ scripts, shortHasArg 'h' s.cli.short = some false ∧
    longHasArgs cs!"help" s.cli.longs = some (false, cs!"help") ∧
    s.cli.rows.find? (fun r => decide (cs!"-h" ∈ r.flags)) = none ∧
    s.cli.rows.find? (fun r => decide (cs!"--help" ∈ r.flags)) = none := by
  intro s hs
  simp only [scripts, List.mem_cons, List.not_mem_nil, or_false] at hs
  rcases hs with rfl | rfl | rfl | rfl | rfl | rfl | rfl <;> decide +kernel

theorem getopt_help {s : Script} (hs : s ∈ scripts) {h : Str} (hh : h = cs!"-h" ∨ h = cs!"--help") (rest : List Str) :
    getopt s.cli.short s.cli.longs (h :: rest) =
      (getopt s.cli.short s.cli.longs rest).bind (fun r => some ((h, []) :: r.1, r.2)) := by
  obtain ⟨h1, h2, -, -⟩ := help_ok s hs
  rcases hh with rfl | rfl
  · rw [getopt_short _ _ _ (by decide)]
    simp only [doShorts, h1, Option.bind_some, List.singleton_append]
  · rw [getopt_long]
    have : doLongs s.cli.longs cs!"help" rest = some ((cs!"--help", []), rest) := by
      simp only [doLongs, splitEq_none (s := cs!"help") (by decide), h2]
      rfl
    rw [this]
    rfl

/-- **C87** (partial: the configuration file, if the remaining words name one, has to be readable where the script opens it
itself, and well-formed) `-h` or `--help` after any documented options and before anything else: every script exits with
status 0, and nothing on the disk changes at any moment. -/
theorem C87_help_partial {s : Script} (hs : s ∈ scripts) {L : Lib} {fs : Fs} {gs : List Given}
    (hg : ∀ g ∈ gs, g.Valid s.docs) {h : Str} (hh : h = cs!"-h" ∨ h = cs!"--help") {rest : List Str}
    (hcfg : ∀ opts tail, getopt s.cli.short s.cli.longs rest = some (opts, tail) →
      ∃ cfg, ConfigSeen s.cli L.parseCfg fs tail cfg) :
    (s.run L fs ((gs.map Given.render).flatten ++ h :: rest)).out = .error (.exit 0) ∧
      ∀ g, (s.run L fs ((gs.map Given.render).flatten ++ h :: rest)).seen g → g = fs := by
  have hok := documentedScripts_ok _ (scripts_documented hs)
  have hget : getopt s.cli.short s.cli.longs ((gs.map Given.render).flatten ++ h :: rest) =
      (getopt s.cli.short s.cli.longs rest).bind (fun r => some (gs.map Given.pair ++ (h, []) :: r.1, r.2)) := by
    clear hcfg
    induction gs with
    | nil => simpa using getopt_help hs hh rest
    | cons g gs ih =>
      rw [List.map_cons, List.flatten_cons, List.append_assoc, getopt_given hok (hg g (by simp)),
        ih (fun g' hg' => hg g' (by simp [hg']))]
      cases getopt s.cli.short s.cli.longs rest <;> rfl
  have hp : s.cli.parseArgs L.parseCfg fs ((gs.map Given.render).flatten ++ h :: rest) = .error (.exit 0) := by
    unfold Cli.parseArgs
    rw [hget]
    cases hr : getopt s.cli.short s.cli.longs rest with
    | none => rfl
    | some q =>
      obtain ⟨cfg, hc⟩ := hcfg q.1 q.2 (by rw [hr])
      obtain ⟨st0, h0, -⟩ := initial_seen hok hc
      obtain ⟨st, h2, -⟩ := optLoop_givens hok hg st0
      simp only [Option.bind_some, h0]
      change s.cli.optLoop _ st0 = _
      rw [optLoop_append, h2]
      change s.cli.optLoop ((h, []) :: q.1) st = _
      obtain ⟨-, -, k1, k2⟩ := help_ok s hs
      rcases hh with rfl | rfl
      · simp only [Cli.optLoop, k1]; rfl
      · simp only [Cli.optLoop, k2]; rfl
  obtain ⟨k, hk⟩ := script_shape hs L fs ((gs.map Given.render).flatten ++ h :: rest)
  rw [hk, hp]
  refine ⟨rfl, ?_⟩
  rintro g (hg | ⟨st, hst, -⟩)
  · exact hg
  · cases hst

/-- **C87** `-h` alone, and `-h` followed by documented options only, satisfy the hypothesis, in every script. -/
theorem C87_help_alone {s : Script} (hs : s ∈ scripts) {L : Lib} {fs : Fs} {h : Str} (hh : h = cs!"-h" ∨ h = cs!"--help")
    {gs : List Given} (hg : ∀ g ∈ gs, g.Valid s.docs) :
    (s.run L fs (h :: (gs.map Given.render).flatten)).out = .error (.exit 0) ∧
      ∀ g, (s.run L fs (h :: (gs.map Given.render).flatten)).seen g → g = fs := by
  refine C87_help_partial hs (gs := []) (by simp) hh ?_
  intro opts tail ho
  have hok := documentedScripts_ok _ (scripts_documented hs)
  have := getopt_givens hok (args := []) (getopt_nil _ _) hg
  rw [List.append_nil] at this
  rw [this] at ho
  injection ho with ho
  injection ho with h1 h2
  subst h2
  exact ⟨fun _ => none, rfl⟩

/-- Refuted part of **C87**: `build_core_space.py` and `compute_neighbours.py` open the configuration file before they look
at the options: asked for help with the name of a file that cannot be read they raise an exception (exit status 1). -/
theorem C87_refuted {s : Script} (hs : s ∈ scripts) (hm : s.cli.mustOpen = true) {L : Lib} {fs : Fs} {h : Str}
    (hh : h = cs!"-h" ∨ h = cs!"--help") {f : Str} (hf : f.head? ≠ some '-') {e : PyErr} (hr : fs.read f = .error e) :
    (s.run L fs [h, f]).out = .error (.raised e) := by
  obtain ⟨k, hk⟩ := script_shape hs L fs [h, f]
  have : s.cli.parseArgs L.parseCfg fs [h, f] = .error (.raised e) := by
    unfold Cli.parseArgs
    rw [getopt_help hs hh, getopt_stop _ _ _ (Or.inl hf)]
    simp only [Option.bind_some, Cli.initial, hr, hm]
    rfl
  rw [hk, this]
  rfl

example : scripts[0] ∈ scripts ∧ scripts[0].cli.mustOpen = true ∧ cs!"nofile".head? ≠ some '-' ∧
    (∃ e, fs0.read cs!"nofile" = .error e) := by
  refine ⟨by simp [scripts], rfl, by decide, .ioError, rfl⟩

/-! ### C85: the log file -/

/-- **C85** refuted: a script whose log file is given without a directory part – on the command line or in the
configuration file – always ends with `OSError`, having done nothing. -/
theorem C85_refuted {s : Script} (hs : s ∈ scripts) {L : Lib} {fs : Fs} {gs : List Given}
    (hg : ∀ g ∈ gs, g.Valid s.docs) {tail : List Str} (ht : Positional tail) {cfg : Str → Option Str}
    (hcfg : ConfigSeen s.cli L.parseCfg fs tail cfg) {name : Str} (hl : wantedLog s gs cfg = some name) (hn : '/' ∉ name) :
    (s.run L fs ((gs.map Given.render).flatten ++ tail)).out = .error (.raised .osError) := by
  obtain ⟨st, h1, h2⟩ := parse_values (documentedScripts_ok _ (scripts_documented hs)) L.parseCfg fs gs hg tail ht cfg hcfg
  rw [log_doc hs h2] at hl
  obtain ⟨k, hk⟩ := script_shape hs L fs ((gs.map Given.render).flatten ++ tail)
  have h1 : s.cli.parseArgs L.parseCfg fs ((gs.map Given.render).flatten ++ tail) = .ok st := h1
  rw [hk, h1]
  show ((configLoggingR fs (st cs!"log_file").asStr).lift.andThen fun fs1 => k st fs1).out = _
  rw [Run.andThen_out, Run.lift_out, hl, configLoggingR_out]
  have hd : dirname name = [] := (pathSplit_spec name).2.2.2.2.2 hn
  have : fs.createParentDirectories name = .error .osError := by
    unfold Fs.createParentDirectories
    rw [hd, if_neg (by simp [Fs.exists_]), Fs.makedirs]
    rw [dif_neg (by simp [Fs.makedirsSplit, pathSplit])]
    simp [Fs.mkdir]
  unfold configLogging
  simp only [this]
  rfl

/-- A concrete instance: `build_core_space.py -l run.log`. -/
example {L : Lib} (fs : Fs) : (mainCoreR L fs [cs!"-l", cs!"run.log"]).out = .error (.raised .osError) :=
  C85_refuted (s := scripts[0]) (by simp [scripts]) (gs := [⟨docCore[6], .shortSep 'l', cs!"run.log"⟩])
    (by intro g hg; simp only [List.mem_cons, List.not_mem_nil, or_false] at hg
        subst hg; simp [Given.Valid, docCore, scripts])
    (tail := []) (by intro a ha; cases ha) (cfg := fun _ => none) (by simp [ConfigSeen]) (name := cs!"run.log") rfl
    (by decide)

/-- **C85** (the part that holds) A log file name with a directory part, on a consistent disk where neither a directory nor
a file is in the way: the log is opened; the missing directories are created; an existing log keeps its content, a new one
starts empty; no other file changes. Not proved, because false: bare file names. Not modelled: the text that is logged. -/
theorem C85_log_partial {fs : Fs} (hok : fs.Ok) {name : Str} (hs : '/' ∈ name)
    (h1 : ¬ "/".toList <:+ name) (h2 : ¬ "/.".toList <:+ name) (hd : fs.resolve name ∉ fs.dirs)
    (hf : ∀ f ∈ fs.files.keys, f <+: fs.resolve name → f = fs.resolve name) :
    ∃ fs', configLogging fs (some name) = .ok fs' ∧
      fs'.read name = .ok (match fs.read name with | .ok old => old | .error _ => []) ∧
      (∀ d ∈ fs.dirs, d ∈ fs'.dirs) ∧ ∀ x, x ≠ fs.resolve name → fs'.files.get? x = fs.files.get? x := by
  have hne : name ≠ [] := by rintro rfl; simp at hs
  have t1 := pathSplit_snd_ne_nil hne h1
  have t2 := pathSplit_snd_ne_dot hs h2
  have hres := resolve_file fs t1 t2
  obtain ⟨fs1, g1, g2, g3, g4, g5, g6, g7⟩ := Fs.createParent_ok hok hs (by
    intro f hf' hp
    have heq := hf f hf' (hp.trans ⟨_, hres.symm⟩)
    have := hp.length_le
    rw [heq, hres] at this
    simp at this)
  have hr1 : fs1.resolve name = fs.resolve name := Fs.resolve_cwd g4 name
  have hread : fs1.read name = fs.read name := read_congr g4 (by rw [g3])
  unfold configLogging
  simp only [g1, ok_bind]
  rw [hread]
  cases hrd : fs.read name with
  | ok old => exact ⟨fs1, rfl, by rw [hread, hrd], g6, fun x _ => by rw [g3]⟩
  | error e =>
    obtain ⟨fs', hw⟩ := Fs.write_succeeds (fs := fs1) (c := []) hne h1
      (by
        rw [hr1]
        intro h
        rcases g7 _ h with h | h
        · exact hd h
        · have := h.length_le
          rw [hres] at this
          simp at this)
      (by rw [hr1, hres, List.dropLast_concat]; exact g5)
    obtain ⟨k1, k2, k3, k4⟩ := Fs.write_ok hw
    refine ⟨fs', hw, Fs.read_write_same hw, fun d hd => by rw [k2]; exact g6 d hd, ?_⟩
    intro x hx
    rw [k4, hr1, if_neg hx, g3]

example : '/' ∈ "logs/run.log".toList ∧ ¬ "/".toList <:+ "logs/run.log".toList ∧ ¬ "/.".toList <:+ "logs/run.log".toList ∧
    fs0.resolve "logs/run.log".toList ∉ fs0.dirs ∧
    (∀ f ∈ fs0.files.keys, f <+: fs0.resolve "logs/run.log".toList → f = fs0.resolve "logs/run.log".toList) := by
  refine ⟨by decide, by decide, by decide, by decide, ?_⟩
  simp [fs0, Dict.empty, Dict.keys]

end
end Dissect
