import Verif.Props.ConcSave
import Verif.Props.Conc

/-! # Two runs of a script that share a new output directory (C126) -/

namespace Dissect
noncomputable section
open Prog

theorem parseArgsP_ret {c : Cli} {parse : Str → Py Config} {argv : List Str} {opts : List (Str × Str)} {fs : Fs} {st : Settings}
    (h1 : getopt c.short c.longs argv = some (opts, [])) (h2 : c.parseArgs parse fs argv = .ok st) :
    parseArgsP c parse argv = .ret st := by
  unfold Cli.parseArgs at h2
  rw [h1] at h2
  unfold parseArgsP
  rw [h1]
  show (Prog.ret c.defaults).bind (fun st => Prog.ofMain (c.optLoop opts st)) = _
  replace h2 : c.optLoop opts c.defaults = .ok st := h2
  show Prog.ofMain (c.optLoop opts c.defaults) = _
  rw [h2]
  rfl

/-- The command line `build_core_space.py -i PRE -o /out --input_format=pkl`. -/
def coreArgs (pre : Str) : List Given := [⟨docCore[0], .shortSep 'i', pre⟩, ⟨docCore[1], .shortSep 'o', cs!"/out"⟩,
  ⟨docCore[7], .longEq, cs!"pkl"⟩]

theorem coreArgs_prog {L : Lib} (hL : L.evalBool cs!"False" = .ok (some false)) (pre : Str) :
    Tool.core.prog L ((coreArgs pre).map Given.render).flatten =
      (buildSpacesP L pre cs!"pkl" cs!"/out" none [none] [none] [none] [none] false).bind fun _ => .ret [] := by
  have hv : ∀ g ∈ coreArgs pre, g.Valid docCore := by
    intro g hg; simp only [coreArgs, List.mem_cons, List.not_mem_nil, or_false] at hg
    rcases hg with rfl | rfl | rfl <;> simp [Given.Valid, docCore]
  obtain ⟨st, a1, a2⟩ := parse_values (documentedScripts_ok (cliCore, docCore) (by simp [documentedScripts])) L.parseCfg
    exBare (coreArgs pre) hv [] (by intro a ha; cases ha) (fun _ => none) rfl
  have hg := getopt_givens (documentedScripts_ok (cliCore, docCore) (by simp [documentedScripts]))
      (getopt_positional (short := cliCore.short) (longs := cliCore.longs) (tail := []) (by intro a ha; cases ha)) hv
  rw [List.append_nil] at a1 hg
  have hp := parseArgsP_ret hg a1
  have v : ∀ o ∈ docCore, st o.var = wanted (coreArgs pre) (fun _ => none) o := a2
  have e1 : st cs!"in_file_prefix" = .str pre := v docCore[0] (by simp [docCore])
  have e2 : st cs!"out_dir" = .str cs!"/out" := v docCore[1] (by simp [docCore])
  have e3 : st cs!"weightings" = .none := v docCore[2] (by simp [docCore])
  have e4 : st cs!"selections" = .none := v docCore[3] (by simp [docCore])
  have e5 : st cs!"reductions" = .none := v docCore[4] (by simp [docCore])
  have e6 : st cs!"normalizations" = .none := v docCore[5] (by simp [docCore])
  have e7 : st cs!"log_file" = .none := v docCore[6] (by simp [docCore])
  have e8 : st cs!"in_format" = .str cs!"pkl" := v docCore[7] (by simp [docCore])
  have e9 : st cs!"gz" = .str cs!"False" := v docCore[8] (by simp [docCore])
  have e10 : st cs!"out_format" = .none := v docCore[9] (by simp [docCore])
  show (mainCoreP L _).bind _ = _
  unfold mainCoreP
  rw [show parseArgsP cliCore L.parseCfg ((coreArgs pre).map Given.render).flatten = .ret st from hp]
  show ((configLoggingP (st cs!"log_file").asStr).bind _).bind _ = _
  rw [e7]
  show ((Prog.ofMain (require (st cs!"in_file_prefix").asStr)).bind _).bind _ = _
  rw [e1, e2, e3, e4, e5, e6, e8, e9, e10]
  show (((Prog.ofPy (L.evalBool cs!"False")).bind _).bind _) = _
  rw [hL]
  rfl

/-- What `build_core_space.py` does after the only save: it leaves its loops. -/
def thenDone (P : Prog Unit) : Prog (List (Str × List (Str × ℝ))) :=
  (((((P.bind fun _ => .ret ()).bind fun _ => .ret ()).bind fun _ => .ret ()).bind fun _ => .ret ()).bind
    fun _ => .ret ()).bind fun _ => .ret []

theorem thenDone_solo {P : Prog Unit} {fs g : Fs} (h : P.solo fs = (.ok (), g)) : (thenDone P).solo fs = (.ok [], g) := by
  unfold thenDone
  have h1 : ∀ Q : Prog Unit, Q.solo fs = (.ok (), g) → (Q.bind fun _ => .ret ()).solo fs = (.ok (), g) := by
    intro Q hQ
    rw [solo_bind_ok hQ]
    rfl
  rw [solo_bind_ok (h1 _ (h1 _ (h1 _ (h1 _ (h1 _ h)))))]
  rfl

theorem Prog.bind_assoc' {α β γ : Type} (P : Prog α) (Q : α → Prog β) (R : β → Prog γ) :
    (P.bind Q).bind R = P.bind (fun a => (Q a).bind R) := by
  induction P with
  | ret a => rfl
  | raise e => rfl
  | stat p k ih => exact congrArg (Prog.stat p) (funext fun r => ih r)
  | list p k ih => exact congrArg (Prog.list p) (funext fun r => ih r)
  | mkdir p k ih => exact congrArg (Prog.mkdir p) (funext fun r => ih r)
  | read p k ih => exact congrArg (Prog.read p) (funext fun r => ih r)
  | openW p k ih => exact congrArg (Prog.openW p) (funext fun r => ih r)
  | put m off c k ih => exact congrArg (Prog.put m off c) ih

/-- The part of a save before the file is opened. -/
theorem thenDone_save (t p : Str) : thenDone (saveP t p) = (createParentP p).bind (fun _ => thenDone (writeP p (.ok t))) := by
  unfold thenDone saveP
  simp only [Prog.bind_assoc']

/-- Two processes that are about to create `/out`. -/
theorem race_new_directory {α : Type} (K K' : Unit → Prog α) :
    (Sys.run ⟨[[], [cs!"home"], [cs!"data"]],
        ((Dict.empty).set [cs!"data", cs!"a.pkl"] cs!"S").set [cs!"data", cs!"b.pkl"] cs!"S", fun _ => [cs!"home"],
        fun b => cond b ((createParentP (cs!"/out/CORE_SS." ++ lastComp cs!"/data/b" ++ cs!".pkl")).bind K')
          ((createParentP (cs!"/out/CORE_SS." ++ lastComp cs!"/data/a" ++ cs!".pkl")).bind K)⟩
      [false, false, true, true, true, false]).prog false = .raise (.raised .osError) := by
  have h : ∀ {p : Str}, dirname p = cs!"/out" → createParentP p = .stat cs!"/out" (fun b => (if b then (.ret () : Prog Unit) else
      (Prog.stat cs!"/" (fun b => if b then .mkdir cs!"/out" .ret
        else (makedirsP cs!"/").bind (fun r => if r = some .other then .ret r else .mkdir cs!"/out" .ret))).bind raiseOs)) := by
    intro p hp
    unfold createParentP
    rw [hp, makedirsP_out]
  rw [h (p := cs!"/out/CORE_SS." ++ lastComp cs!"/data/a" ++ cs!".pkl") rfl,
    h (p := cs!"/out/CORE_SS." ++ lastComp cs!"/data/b" ++ cs!".pkl") rfl]
  rfl

theorem coreArgs_saves {L : Lib} (hL : L.evalBool cs!"False" = .ok (some false)) {s : Space Str}
    (hu : L.undump cs!"S" = some (.space s)) (pre : Str) :
    ∃ k, Tool.core.prog L ((coreArgs pre).map Given.render).flatten = .read (pre ++ cs!".pkl") k ∧
      k (.ok cs!"S") = thenDone (saveP (L.dump (.space s)) (cs!"/out/CORE_SS." ++ lastComp pre ++ cs!".pkl")) := by
  have hk : keptOps [some (coreDescr pre), none, none, none, none] = [cs!"CORE_SS." ++ lastComp pre] := by
    unfold keptOps coreDescr
    show List.filter _ [cs!"CORE_SS." ++ lastComp pre] = _
    rw [List.filter_cons_of_pos (by simp)]
    rfl
  have hf : spaceFile cs!"/out" [some (coreDescr pre), none, none, none, none] ++ cs!".pkl" =
      cs!"/out/CORE_SS." ++ lastComp pre ++ cs!".pkl" := by
    unfold spaceFile
    rw [hk]
    rfl
  have hs : spaceOf L (.ok cs!"S") = .ok s := by
    unfold spaceOf
    simp only [hu]
  rw [coreArgs_prog hL]
  refine ⟨fun r => ((Prog.ofPy (spaceOf L r)).bind fun space =>
    forP (fun i w => (Prog.ofPy (applyWeighting L.env space w)).bind fun wSpace =>
    forP (fun j s => (Prog.ofPy (applySelection L.env wSpace s)).bind fun sSpace =>
      forP (fun k r => (Prog.ofPy (applyReduction L.env (L.chance i j k) sSpace r)).bind fun rSpace =>
        forP (fun _ n => (Prog.ofPy (applyNormalization L.env rSpace n)).bind fun nSpace =>
          printP L nSpace (spaceFile cs!"/out" [some (coreDescr pre), w, s, r, n]) none) 0 [none]) 0 [none]) 0 [none]) 0 [none]).bind
    fun _ => .ret [], ?_, ?_⟩
  · rw [show pre ++ cs!".pkl" = pre ++ ['.'] ++ cs!"pkl" from by simp]
    rfl
  · beta_reduce
    rw [hs]
    show thenDone (saveP (L.dump (.space s)) (spaceFile cs!"/out" [some (coreDescr pre), none, none, none, none] ++ cs!".pkl")) = _
    rw [hf]

/-- Refuted part of **C126** for the scripts: `build_core_space.py` run on two different inputs with the same output
directory, which does not exist yet. Alone each run succeeds; for some schedule one of them dies with `OSError`. -/
theorem C126_refuted_scripts (L : Lib) (hL : L.evalBool cs!"False" = .ok (some false)) (s : Space Str)
    (hu : L.undump cs!"S" = some (.space s)) :
    let files := ((Dict.empty).set [cs!"data", cs!"a.pkl"] cs!"S").set [cs!"data", cs!"b.pkl"] cs!"S"
    let dirs := [[], [cs!"home"], [cs!"data"]]
    let argv := fun b : Bool => ((coreArgs (cond b cs!"/data/b" cs!"/data/a")).map Given.render).flatten
    (∀ b, ∃ g, Tool.core.alone L ⟨[cs!"home"], dirs, files⟩ (argv b) = .ok ([], g)) ∧
    ∃ sched, ((startScripts L dirs files (fun _ => [cs!"home"]) (fun _ => .core) argv).run sched).prog false =
      .raise (.raised .osError) := by
  intro files dirs argv
  obtain ⟨ka, ka1, ka2⟩ := coreArgs_saves hL hu cs!"/data/a"
  obtain ⟨kb, kb1, kb2⟩ := coreArgs_saves hL hu cs!"/data/b"
  refine ⟨?_, ?_⟩
  · have solo : ∀ b, ∃ g, (Tool.core.prog L (argv b)).solo ⟨[cs!"home"], dirs, files⟩ = (.ok [], g) := by
      intro b
      cases b
      · show ∃ g, (Tool.core.prog L ((coreArgs cs!"/data/a").map Given.render).flatten).solo _ = _
        rw [ka1]
        show ∃ g, (ka (.ok cs!"S")).solo _ = _
        rw [ka2, saveP_out _ (p := cs!"/out/CORE_SS." ++ lastComp cs!"/data/a" ++ cs!".pkl") rfl]
        exact ⟨_, thenDone_solo (putAll_solo [cs!"out", cs!"CORE_SS.a.pkl"] (L.dump (.space s)) []
          ⟨[cs!"home"], [cs!"out"] :: dirs, files⟩)⟩
      · show ∃ g, (Tool.core.prog L ((coreArgs cs!"/data/b").map Given.render).flatten).solo _ = _
        rw [kb1]
        show ∃ g, (kb (.ok cs!"S")).solo _ = _
        rw [kb2, saveP_out _ (p := cs!"/out/CORE_SS." ++ lastComp cs!"/data/b" ++ cs!".pkl") rfl]
        exact ⟨_, thenDone_solo (putAll_solo [cs!"out", cs!"CORE_SS.b.pkl"] (L.dump (.space s)) []
          ⟨[cs!"home"], [cs!"out"] :: dirs, files⟩)⟩
    intro b
    obtain ⟨g, hg⟩ := solo b
    obtain ⟨s1, s2⟩ := script_solo L ⟨[cs!"home"], dirs, files⟩ (argv b) .core
    cases ha : Tool.core.alone L ⟨[cs!"home"], dirs, files⟩ (argv b) with
    | error e =>
      obtain ⟨g', h⟩ := s2 e ha
      rw [hg] at h
      cases h
    | ok x =>
      obtain ⟨r, g'⟩ := x
      have := s1 r g' ha
      rw [hg] at this
      injection this with h1 h2
      injection h1 with h1
      subst h1
      exact ⟨_, rfl⟩
  · refine ⟨[false, true, false, false, true, true, true, false], ?_⟩
    have hstart : startScripts L dirs files (fun _ => [cs!"home"]) (fun _ => .core) argv =
        ⟨dirs, files, fun _ => [cs!"home"], fun b => cond b (.read (cs!"/data/b" ++ cs!".pkl") kb) (.read (cs!"/data/a" ++ cs!".pkl") ka)⟩ := by
      unfold startScripts
      congr 1
      funext b
      cases b
      · exact ka1
      · exact kb1
    rw [hstart]
    have ha : ∀ t : List Bool, Sys.run ⟨dirs, files, fun _ => [cs!"home"], fun b => cond b (.read (cs!"/data/b" ++ cs!".pkl") kb)
        (.read (cs!"/data/a" ++ cs!".pkl") ka)⟩ (false :: true :: t) =
        Sys.run ⟨dirs, files, fun _ => [cs!"home"], fun b => cond b (kb (.ok cs!"S")) (ka (.ok cs!"S"))⟩ t := by
      intro t
      have h2 : ∀ S T : Sys Bool (List (Str × List (Str × ℝ))), (S.step false).step true = T →
          Sys.run S (false :: true :: t) = Sys.run T t := by
        intro S T h
        rw [← h]
        rfl
      refine h2 _ _ ?_
      have h3 : ∀ S T : Sys Bool (List (Str × List (Str × ℝ))), S.dirs = T.dirs → S.files = T.files → S.cwd = T.cwd →
          S.prog false = T.prog false → S.prog true = T.prog true → S = T := by
        rintro ⟨d, f, c, p⟩ ⟨d', f', c', p'⟩ rfl rfl rfl h1 h2
        have : p = p' := by funext b; cases b; exacts [h1, h2]
        rw [this]
      exact h3 _ _ rfl rfl rfl rfl rfl
    rw [ha, ka2, kb2, thenDone_save, thenDone_save]
    exact race_new_directory _ _

end
end Dissect
