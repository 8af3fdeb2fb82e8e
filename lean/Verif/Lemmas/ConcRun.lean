import Verif.Lemmas.ConcFoot

/-! # Runs of scripts, alone and together -/

namespace Dissect
noncomputable section
open Prog

/-- A process that runs alone leaves alone what it does not write. -/
theorem solo_same {α : Type} {n : List Str} (P : Prog α) : ∀ fs : Fs, ¬ P.writes fs n → SameAt (P.solo fs).2 fs n := by
  have first : ∀ (P : Prog α) (fs : Fs), ¬ P.writes fs n → SameAt (P.step fs).2 fs n := by
    intro P fs h
    exact (P.writes_call (T := fun _ => True) (Agree.refl _ fs) (fun _ _ => trivial) (S := fun m => m = n)
      (fun m hm e => h (e ▸ hm))).sameAt rfl
  induction P with
  | ret a => exact fun _ _ => ⟨Iff.rfl, rfl⟩
  | raise e => exact fun _ _ => ⟨Iff.rfl, rfl⟩
  | stat p k ih => exact fun fs h => ih _ fs h
  | list p k ih => exact fun fs h => ih _ fs h
  | read p k ih => exact fun fs h => ih _ fs h
  | mkdir p k ih =>
    intro fs h
    have h1 := ih (fs.mkdirCall p).1 (fs.mkdirCall p).2 (fun h' => h (Or.inr h'))
    have h2 := first (.mkdir p k) fs h
    exact ⟨h1.1.trans h2.1, h1.2.trans h2.2⟩
  | openW p k ih =>
    intro fs h
    have h1 := ih (fs.openCall p).1 (fs.openCall p).2 (fun h' => h (Or.inr h'))
    have h2 := first (.openW p k) fs h
    exact ⟨h1.1.trans h2.1, h1.2.trans h2.2⟩
  | put m off c k ih =>
    intro fs h
    have h1 := ih (fs.putCall m off c) (fun h' => h (Or.inr h'))
    have h2 := first (.put m off c k) fs h
    exact ⟨h1.1.trans h2.1, h1.2.trans h2.2⟩

theorem acts_bind {P : Prog Unit} {fs : Fs} {x : Main Fs} (h : Acts P fs x) :
    (∀ r g, x.map (fun g => (([] : List (Str × List (Str × ℝ))), g)) = .ok (r, g) →
      (P.bind fun _ => .ret []).solo fs = (.ok r, g)) ∧
    (∀ e, x.map (fun g => (([] : List (Str × List (Str × ℝ))), g)) = .error e →
      ∃ g, (P.bind fun _ => (.ret [] : Prog (List (Str × List (Str × ℝ))))).solo fs = (.error e, g)) := by
  cases x with
  | ok g =>
    have h1 := h.1 g rfl
    refine ⟨fun r g' e => ?_, fun e he => by cases he⟩
    injection e with e
    injection e with e1 e2
    subst e1; subst e2
    rw [solo_bind_ok h1]
    rfl
  | error e =>
    refine ⟨fun r g' e => (by cases e), fun e' he' => ?_⟩
    obtain ⟨g, h1⟩ := h.2 e rfl
    injection he' with he'
    subst he'
    exact ⟨g, solo_bind_error h1⟩

/-- The process of a script does, alone, what the big-step model of the script says. -/
theorem script_solo (L : Lib) (fs : Fs) (argv : List Str) (sc : Tool) :
    (∀ r g, sc.alone L fs argv = .ok (r, g) → (sc.prog L argv).solo fs = (.ok r, g)) ∧
    (∀ e, sc.alone L fs argv = .error e → ∃ g, (sc.prog L argv).solo fs = (.error e, g)) := by
  cases sc with
  | core => exact acts_bind (mainCoreP_does L fs argv)
  | periph => exact acts_bind (mainPeriphP_does L fs argv)
  | sims => exact acts_bind (mainSimsP_does L fs argv)
  | neigh => exact acts_bind (mainNeighP_does L fs argv)
  | train => exact acts_bind (mainTrainP_does L fs argv)
  | apply => exact acts_bind (mainApplyP_does L fs argv)
  | eval =>
    obtain ⟨h1, h2⟩ := mainEvalP_solo L fs argv
    cases hm : mainEval L fs argv with
    | ok r =>
      obtain ⟨st, g, e1, e2, e3⟩ := h1 r hm
      have : Tool.alone L fs argv .eval = .ok (r, g) := by
        show (cliEval.parseArgs L.parseCfg fs argv >>= fun st => Main.lift (configLogging fs (st cs!"log_file").asStr) >>= fun g =>
          mainEval L fs argv >>= fun r => pure (r, g)) = _
        rw [e1, main_ok_bind, e2, hm]
        rfl
      rw [this]
      refine ⟨fun r' g' e => ?_, fun e he => by cases he⟩
      injection e with e
      injection e with e1 e2
      subst e1; subst e2
      exact e3
    | error e =>
      obtain ⟨g, h3⟩ := h2 e hm
      have hal : Tool.alone L fs argv .eval = .error e := by
        show (cliEval.parseArgs L.parseCfg fs argv >>= fun st => Main.lift (configLogging fs (st cs!"log_file").asStr) >>= fun g =>
          mainEval L fs argv >>= fun r => pure (r, g)) = _
        rw [hm]
        unfold mainEval at hm
        cases hp : cliEval.parseArgs L.parseCfg fs argv with
        | error e1 => rw [hp] at hm; injection hm with hm; subst hm; rfl
        | ok st =>
          rw [hp, main_ok_bind] at hm
          rw [main_ok_bind]
          cases hq : Main.lift (configLogging fs (st cs!"log_file").asStr) with
          | error e1 => rw [hq] at hm; injection hm with hm; subst hm; rfl
          | ok g => rfl
      rw [hal]
      exact ⟨fun r g' he => (by cases he), fun e' he' => ⟨g, (by injection he' with he'; subst he'; exact h3)⟩⟩

end
end Dissect
