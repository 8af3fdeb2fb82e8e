import Verif.Lemmas.ConcCalm

/-!
# The same files written by several processes at the same time

C136: processes that would all write the same content. C137: processes that save different contents to one file.
-/

namespace Dissect
noncomputable section
open Prog

theorem calm_opens {α : Type} {o : Fs} {U : List Str → Prop} {n : List Str} {P : Prog α} :
    ∀ {cur : Option (List Str × ℕ)}, Calm o U cur P → Opens n (events o P) → U n := by
  induction P with
  | ret a => exact fun _ h => (by cases h)
  | raise e => exact fun _ h => (by cases h)
  | stat p k ih =>
    intro cur h ho
    rcases List.mem_cons.1 ho with ho | ho
    · cases ho
    · exact ih _ h.2 ho
  | list p k ih =>
    intro cur h ho
    rcases List.mem_cons.1 ho with ho | ho
    · cases ho
    · exact ih _ h.2.2 ho
  | mkdir p k ih => exact fun h => h.elim
  | read p k ih =>
    intro cur h ho
    rcases List.mem_cons.1 ho with ho | ho
    · cases ho
    · exact ih _ h.2 ho
  | openW p k ih =>
    intro cur h ho
    rcases List.mem_cons.1 ho with ho | ho
    · rcases openCall_disk o p with ⟨e, hc⟩ | hc
      · rw [hc] at ho; cases ho
      · rw [hc] at ho
        injection ho with ho
        rw [ho]; exact h.1
    · exact ih _ h.2 ho
  | put m off c k ih =>
    intro cur h ho
    rcases List.mem_cons.1 ho with ho | ho
    · cases ho
    · exact ih h.2 ho

section
variable {ι : Type} [DecidableEq ι] {dirs : List (List Str)} {files : Dict (List Str) Str} {cwd : ι → List Str}

/-- **C136.** Any number of processes save files into existing directories; processes that save the same file save the
same content. Whatever the schedule, a process that has had one turn per character and two more has returned normally;
once all the processes that save a file have ended, the file holds what they saved; other files are untouched. -/
theorem C136_save (txt path : ι → Str) (hs : ∀ i, Saveable ⟨cwd i, dirs, files⟩ (path i))
    (hsame : ∀ i j, nodeOf (cwd i) (path i) = nodeOf (cwd j) (path j) → txt i = txt j) (sched : List ι) :
    let fin := (⟨dirs, files, cwd, fun i => saveP (txt i) (path i)⟩ : Sys ι Unit).run sched
    (∀ i, (txt i).length + 2 ≤ sched.count i → fin.prog i = .ret ()) ∧
    (∀ i, (∀ j, nodeOf (cwd j) (path j) = nodeOf (cwd i) (path i) → (fin.prog j).Done) →
      fin.files.get? (nodeOf (cwd i) (path i)) = some (txt i)) ∧
    (∀ n, (∀ i, n ≠ nodeOf (cwd i) (path i)) → fin.files.get? n = files.get? n) ∧ fin.dirs = dirs := by
  intro fin
  have hU : ∀ n, (∃ i, n = nodeOf (cwd i) (path i)) → n ∉ dirs := by
    rintro n ⟨i, rfl⟩
    exact (hs i).isFile
  have htg : ∀ i, Target ⟨cwd i, dirs, files⟩ (fun n => ∃ i, n = nodeOf (cwd i) (path i)) (path i) :=
    fun i => ⟨hs i, ⟨i, rfl⟩, fun h => hU _ h (hs i).dir⟩
  have hown : ∀ i, Target ⟨cwd i, dirs, files⟩ (fun n => n = nodeOf (cwd i) (path i)) (path i) :=
    fun i => ⟨hs i, rfl, fun h => hU _ ⟨i, h⟩ (hs i).dir⟩
  have hcalm := fun i => saveP_calm (htg i) (txt i)
  have hop : ∀ i n, Opens n (events ⟨cwd i, dirs, files⟩ (saveP (txt i) (path i))) → n = nodeOf (cwd i) (path i) :=
    fun i n h => calm_opens (U := fun n => n = nodeOf (cwd i) (path i)) (saveP_calm (hown i) (txt i)) h
  have hget : ∀ i, ((saveP (txt i) (path i)).solo ⟨cwd i, dirs, files⟩).2.files.get? (nodeOf (cwd i) (path i)) = some (txt i) := by
    intro i
    rw [saving_solo (hs i)]
    show (files.set (nodeOf (cwd i) (path i)) (txt i)).get? _ = _
    rw [Dict.get?_set, if_pos rfl]
  obtain ⟨a1, a2, a3, a4, a5⟩ := shared_files (s := (⟨dirs, files, cwd, fun i => saveP (txt i) (path i)⟩ : Sys ι Unit)) hcalm
    (by
      intro i j n hi hj
      have h1 := hop i n hi
      have h2 := hop j n hj
      have h3 := hget i
      have h4 := hget j
      rw [← h1] at h3
      rw [← h2] at h4
      exact h3.trans ((congrArg some (hsame i j (h1.symm.trans h2))).trans h4.symm)) sched
  have hopens : ∀ i, Opens (nodeOf (cwd i) (path i)) (events ⟨cwd i, dirs, files⟩ (saveP (txt i) (path i))) := by
    intro i
    right
    show Opens _ (events _ (((if (⟨cwd i, dirs, files⟩ : Fs).exists_ (dirname (path i)) = true then (.ret () : Prog Unit)
      else (makedirsP (dirname (path i))).bind raiseOs).bind (fun _ => writeP (path i) (.ok (txt i))))))
    rw [if_pos (saveable_exists (hs i))]
    show Opens _ ((match ((⟨cwd i, dirs, files⟩ : Fs).openCall (path i)).1 with
      | .ok n => Ev.trunc n
      | .error _ => .look) :: _)
    rw [saveable_open (hs i)]
    exact List.mem_cons_self
  refine ⟨fun i hc => ?_, fun i hd => ?_, fun n hn => ?_, a1⟩
  · have hd := a3 i (by
      show (saveP (txt i) (path i)).steps ⟨cwd i, dirs, files⟩ ≤ _
      rw [saving_steps (hs i)]
      exact hc)
    have := a2 i hd
    rw [show ((⟨dirs, files, cwd, fun i => saveP (txt i) (path i)⟩ : Sys ι Unit).prog i).solo
      ((⟨dirs, files, cwd, fun i => saveP (txt i) (path i)⟩ : Sys ι Unit).view i) =
      (saveP (txt i) (path i)).solo ⟨cwd i, dirs, files⟩ from rfl, saving_solo (hs i)] at this
    exact this
  · rw [a4 _ (fun j hj => hd j (hop j _ hj).symm) i (hopens i)]
    exact hget i
  · exact a5 n (fun i hi => hn i (hop i n hi))

variable {L : Lib} {sc : ι → Tool} {argv : ι → List Str} {st : ι → Settings}

omit [DecidableEq ι] in
/-- What a prepared run of a script looks like to the others. -/
theorem settled_calm {i : ι} {U : List Str → Prop} (h : (sc i).Settled L ⟨cwd i, dirs, files⟩ (argv i) (st i))
    (h1 : ∀ n, (sc i).Outputs (cwd i) (st i) n → U n) (h2 : ∀ n, (sc i).Inputs (cwd i) (argv i) (st i) n → ¬ U n)
    (h3 : ∀ n ∈ dirs, ¬ U n) : Calm ⟨cwd i, dirs, files⟩ U none ((sc i).prog L (argv i)) := by
  refine script_calm (st := st i) ⟨fun p hp => ⟨h.out p hp, h1 _ ⟨p, hp, rfl⟩, h3 _ (h.out p hp).dir⟩, fun n hn => h2 n (Or.inl hn)⟩
    h.parsed h3 (fun f hf => ?_)
  obtain ⟨g1, g2⟩ := h.log f hf
  exact ⟨g1.dir, g1.named, g2, h2 _ (Or.inr ⟨f, hf, rfl⟩)⟩

/-- **C136.** Any number of runs of the scripts at the same time, in existing output directories, none of which has an
output file of any of them as input, and all of which would succeed alone. If the runs that may write a file would, each
of them alone, leave the file with the same content, then, whatever the schedule: every run ends as it would have ended
alone, and when all have ended every file is as any of the runs that may write it would have left it, and the other files
are as before. -/
theorem C136_scripts (h : ∀ i, (sc i).Settled L ⟨cwd i, dirs, files⟩ (argv i) (st i))
    (hin : ∀ i j n, (sc i).Inputs (cwd i) (argv i) (st i) n → ¬ (sc j).Outputs (cwd j) (st j) n)
    {r : ι → List (Str × List (Str × ℝ))} {g : ι → Fs}
    (hok : ∀ i, (sc i).alone L ⟨cwd i, dirs, files⟩ (argv i) = .ok (r i, g i))
    (hsame : ∀ i j n, (sc i).Outputs (cwd i) (st i) n → (sc j).Outputs (cwd j) (st j) n →
      (g i).files.get? n = (g j).files.get? n) :
    (∃ N : ι → ℕ, ∀ sched i, N i ≤ sched.count i →
      (((startScripts L dirs files cwd sc argv).run sched).prog i).Done) ∧
    ∀ sched, (∀ i, (((startScripts L dirs files cwd sc argv).run sched).prog i).Done →
        ((startScripts L dirs files cwd sc argv).run sched).prog i = .ret (r i)) ∧
      ((∀ i, (((startScripts L dirs files cwd sc argv).run sched).prog i).Done) → ∀ i n,
        ((sc i).Outputs (cwd i) (st i) n → SameAt (((startScripts L dirs files cwd sc argv).run sched).view i) (g i) n) ∧
        ((∀ j, ¬ (sc j).Outputs (cwd j) (st j) n) →
          SameAt (((startScripts L dirs files cwd sc argv).run sched).view i) ⟨cwd i, dirs, files⟩ n)) := by
  have hdirs : ∀ n ∈ dirs, ¬ ∃ i, (sc i).Outputs (cwd i) (st i) n := by
    rintro n hn ⟨i, p, hp, rfl⟩
    exact ((h i).out p hp).isFile hn
  have hcalm : ∀ i, Calm ⟨cwd i, dirs, files⟩ (fun n => ∃ j, (sc j).Outputs (cwd j) (st j) n) none ((sc i).prog L (argv i)) :=
    fun i => settled_calm (h i) (fun n hn => ⟨i, hn⟩) (fun n hn ⟨j, hj⟩ => hin i j n hn hj) hdirs
  have hop : ∀ i n, Opens n (events ⟨cwd i, dirs, files⟩ ((sc i).prog L (argv i))) → (sc i).Outputs (cwd i) (st i) n :=
    fun i n ho => calm_opens (settled_calm (U := (sc i).Outputs (cwd i) (st i)) (h i) (fun _ hn => hn) (fun n hn => hin i i n hn)
      (fun n hn hc => hdirs n hn ⟨i, hc⟩)) ho
  have hsolo : ∀ i, ((sc i).prog L (argv i)).solo ⟨cwd i, dirs, files⟩ = (.ok (r i), g i) :=
    fun i => (script_solo L _ (argv i) (sc i)).1 _ _ (hok i)
  have hgd : ∀ i, (g i).dirs = dirs := by
    intro i
    have := (calm_solo _ rfl (NearBy.refl _ _) (fun _ _ e => (by cases e)) (hcalm i)).2.1.dirs
    rw [hsolo i] at this
    exact this
  have hkeep : ∀ i n, ¬ Opens n (events ⟨cwd i, dirs, files⟩ ((sc i).prog L (argv i))) → (g i).files.get? n = files.get? n := by
    intro i n hn
    have := (calm_solo _ rfl (NearBy.refl _ _) (fun _ _ e => (by cases e)) (hcalm i)).2.2.2 n
    rw [hsolo i, actAll_untouched (hcalm i).inOrder hn (fun _ e => (by cases e))] at this
    exact this
  have main := fun sched => shared_files (s := startScripts L dirs files cwd sc argv) hcalm (by
      intro i j n hi hj
      show (((sc i).prog L (argv i)).solo ⟨cwd i, dirs, files⟩).2.files.get? n =
        (((sc j).prog L (argv j)).solo ⟨cwd j, dirs, files⟩).2.files.get? n
      rw [hsolo, hsolo]
      exact hsame i j n (hop i n hi) (hop j n hj)) sched
  refine ⟨⟨fun i => ((sc i).prog L (argv i)).steps ⟨cwd i, dirs, files⟩, fun sched i hc => (main sched).2.2.1 i hc⟩, fun sched => ?_⟩
  obtain ⟨a1, a2, a3, a4, a5⟩ := main sched
  refine ⟨fun i hd => ?_, fun hd i n => ⟨fun ho => ⟨?_, ?_⟩, fun hno => ⟨?_, ?_⟩⟩⟩
  · have := a2 i hd
    rw [show ((startScripts L dirs files cwd sc argv).prog i).solo ((startScripts L dirs files cwd sc argv).view i) =
      ((sc i).prog L (argv i)).solo ⟨cwd i, dirs, files⟩ from rfl, hsolo i] at this
    exact this
  · show n ∈ ((startScripts L dirs files cwd sc argv).run sched).dirs ↔ _
    rw [a1, hgd i]
    rfl
  · show ((startScripts L dirs files cwd sc argv).run sched).files.get? n = _
    by_cases hx : ∃ j, Opens n (events ⟨cwd j, dirs, files⟩ ((sc j).prog L (argv j)))
    · obtain ⟨j, hj⟩ := hx
      rw [a4 n (fun k _ => hd k) j hj]
      show (((sc j).prog L (argv j)).solo ⟨cwd j, dirs, files⟩).2.files.get? n = _
      rw [hsolo j]
      exact hsame j i n (hop j n hj) ho
    · rw [a5 n (fun j hj => hx ⟨j, hj⟩), hkeep i n (fun hi => hx ⟨i, hi⟩)]
      rfl
  · show n ∈ ((startScripts L dirs files cwd sc argv).run sched).dirs ↔ _
    rw [a1]
    rfl
  · show ((startScripts L dirs files cwd sc argv).run sched).files.get? n = _
    rw [a5 n (fun j hj => hno j (hop j n hj))]
    rfl

/-- **C136.** The same command, started any number of times at the same time in the same directory: every one of the runs
ends as the command does when it is run once, also if that is with an exception; and when all have ended, the disk is as
it is after a single run. -/
theorem C136_same_command [Nonempty ι] {c : List Str} {sc : Tool} {argv : List Str} {st : Settings}
    (h : sc.Settled L ⟨c, dirs, files⟩ argv st) (hin : ∀ n, sc.Inputs c argv st n → ¬ sc.Outputs c st n) (sched : List ι) :
    (∀ i, (((startScripts (ι := ι) L dirs files (fun _ => c) (fun _ => sc) (fun _ => argv)).run sched).prog i).Done →
      ((startScripts (ι := ι) L dirs files (fun _ => c) (fun _ => sc) (fun _ => argv)).run sched).prog i =
        Prog.ofMain ((sc.alone L ⟨c, dirs, files⟩ argv).map Prod.fst)) ∧
    ((∀ i, (((startScripts (ι := ι) L dirs files (fun _ => c) (fun _ => sc) (fun _ => argv)).run sched).prog i).Done) → ∀ i n,
      SameAt (((startScripts (ι := ι) L dirs files (fun _ => c) (fun _ => sc) (fun _ => argv)).run sched).view i)
        ((sc.prog L argv).solo ⟨c, dirs, files⟩).2 n) ∧
    (∀ r g, sc.alone L ⟨c, dirs, files⟩ argv = .ok (r, g) → ((sc.prog L argv).solo ⟨c, dirs, files⟩).2 = g) := by
  have hdirs : ∀ n ∈ dirs, ¬ sc.Outputs c st n := by
    rintro n hn ⟨p, hp, rfl⟩
    exact (h.out p hp).isFile hn
  have hcalm : Calm ⟨c, dirs, files⟩ (sc.Outputs c st) none (sc.prog L argv) :=
    settled_calm (ι := ι) (i := Classical.arbitrary ι) (sc := fun _ => sc) (cwd := fun _ => c) (argv := fun _ => argv)
      (st := fun _ => st) h (fun _ hn => hn) hin hdirs
  obtain ⟨a1, a2, a3, a4, a5⟩ := shared_files
    (s := startScripts (ι := ι) L dirs files (fun _ => c) (fun _ => sc) (fun _ => argv)) (fun _ => hcalm) (fun _ _ _ _ _ => rfl) sched
  have hs := calm_solo _ rfl (NearBy.refl _ _) (fun _ _ e => (by cases e)) hcalm
  refine ⟨fun i hd => ?_, fun hd i n => ⟨?_, ?_⟩, fun r g hr => by rw [(script_solo L _ argv sc).1 r g hr]⟩
  · have := a2 i hd
    rw [this]
    show Prog.ofMain ((sc.prog L argv).solo ⟨c, dirs, files⟩).1 = _
    cases ha : sc.alone L ⟨c, dirs, files⟩ argv with
    | ok x =>
      obtain ⟨r, g⟩ := x
      rw [(script_solo L _ argv sc).1 r g ha]
      rfl
    | error e =>
      obtain ⟨g, hg⟩ := (script_solo L _ argv sc).2 e ha
      rw [hg]
      rfl
  · show n ∈ ((startScripts (ι := ι) L dirs files (fun _ => c) (fun _ => sc) (fun _ => argv)).run sched).dirs ↔ _
    rw [a1, hs.2.1.dirs]
    rfl
  · show ((startScripts (ι := ι) L dirs files (fun _ => c) (fun _ => sc) (fun _ => argv)).run sched).files.get? n = _
    by_cases hx : Opens n (events ⟨c, dirs, files⟩ (sc.prog L argv))
    · exact a4 n (fun k _ => hd k) i hx
    · rw [a5 n (fun _ hj => hx hj), hs.2.2.2 n, actAll_untouched hcalm.inOrder hx (fun _ e => (by cases e))]
      rfl

/-! ### C137 -/

/-- **C137** (partial: the last process saves when the others have stopped). Any number of processes save different
contents to files that may be the same; they have had any number of turns, and may be anywhere in the middle of their
work. A process that has not started yet and now makes all of its calls without being interrupted returns normally, and its file
then holds exactly what it saved. -/
theorem C137_last_partial (txt path : ι → Str) (hs : ∀ i, Saveable ⟨cwd i, dirs, files⟩ (path i)) (sched : List ι) (i : ι)
    (h0 : sched.count i = 0) (k : ℕ) (hk : (txt i).length + 2 ≤ k) :
    let fin := (⟨dirs, files, cwd, fun i => saveP (txt i) (path i)⟩ : Sys ι Unit).run (sched ++ List.replicate k i)
    fin.prog i = .ret () ∧ fin.files.get? (nodeOf (cwd i) (path i)) = some (txt i) := by
  intro fin
  have hU : ∀ n, (∃ i, n = nodeOf (cwd i) (path i)) → n ∉ dirs := by
    rintro n ⟨i, rfl⟩
    exact (hs i).isFile
  have htg : ∀ i, Target ⟨cwd i, dirs, files⟩ (fun n => ∃ i, n = nodeOf (cwd i) (path i)) (path i) :=
    fun i => ⟨hs i, ⟨i, rfl⟩, fun h => hU _ h (hs i).dir⟩
  obtain ⟨cur, hsh, hl⟩ := Shared.run sched (Shared.start
    (s := (⟨dirs, files, cwd, fun i => saveP (txt i) (path i)⟩ : Sys ι Unit)) (fun i => saveP_calm (htg i) (txt i)))
  have hprog : ∀ (sched : List ι) (s : Sys ι Unit), sched.count i = 0 → (s.run sched).prog i = s.prog i := by
    intro sched
    induction sched with
    | nil => exact fun _ _ => rfl
    | cons j sched ih =>
      intro s hc
      rw [List.count_cons] at hc
      have hj : i ≠ j := by rintro rfl; simp at hc
      rw [show s.run (j :: sched) = (s.step j).run sched from rfl, ih _ (by omega)]
      exact Function.update_of_ne hj _ _
  have hp := hprog sched (⟨dirs, files, cwd, fun i => saveP (txt i) (path i)⟩ : Sys ι Unit) h0
  have halone : ∀ (k : ℕ) (s : Sys ι Unit) (P : Prog Unit), s.prog i = P → P.steps (s.view i) ≤ k →
      (s.run (List.replicate k i)).prog i = Prog.ofMain (P.solo (s.view i)).1 ∧
      (s.run (List.replicate k i)).files = (P.solo (s.view i)).2.files := by
    intro k
    induction k with
    | zero =>
      intro s P hP hle
      obtain ⟨d1, d2⟩ := done_eq (steps_zero (Nat.le_zero.1 hle)) (s.view i)
      refine ⟨?_, ?_⟩
      · show s.prog i = _
        rw [hP]; exact d1
      · rw [d2]; rfl
    | succ k ih =>
      intro s P hP hle
      have hself : (s.step i).prog i = (P.step (s.view i)).1 := by
        rw [← hP]; exact Function.update_self _ _ _
      have hview : (s.step i).view i = (P.step (s.view i)).2 := by
        rw [← hP]; exact Sys.view_step_self s i (Sys.step_cwd _ _)
      have := ih (s.step i) _ hself (by rw [hview, steps_step]; omega)
      rw [hview, solo_step] at this
      exact this
  have hv : Saveable (((⟨dirs, files, cwd, fun i => saveP (txt i) (path i)⟩ : Sys ι Unit).run sched).view i) (path i) := by
    have hn := hsh.near i
    have hc : ∀ q, (((⟨dirs, files, cwd, fun i => saveP (txt i) (path i)⟩ : Sys ι Unit).run sched).view i).resolve q =
      (⟨cwd i, dirs, files⟩ : Fs).resolve q := fun q => hn.agree.resolve q
    have hd : (((⟨dirs, files, cwd, fun i => saveP (txt i) (path i)⟩ : Sys ι Unit).run sched).view i).dirs = dirs := hn.dirs
    have := hs i
    exact ⟨by rw [hc, hd]; exact this.dir, this.named, by rw [hc, hd]; exact this.parent, by rw [hc, hd]; exact this.isFile,
      this.noSlash⟩
  obtain ⟨r1, r2⟩ := halone k _ _ hp (by
    show (saveP (txt i) (path i)).steps _ ≤ k
    rw [saving_steps hv]
    exact hk)
  rw [show (⟨dirs, files, cwd, fun i => saveP (txt i) (path i)⟩ : Sys ι Unit).prog i = saveP (txt i) (path i) from rfl,
    saving_solo hv] at r1 r2
  have hfin : fin = ((⟨dirs, files, cwd, fun i => saveP (txt i) (path i)⟩ : Sys ι Unit).run sched).run (List.replicate k i) :=
    List.foldl_append
  refine ⟨by rw [hfin]; exact r1, ?_⟩
  rw [hfin, r2]
  have hres : (((⟨dirs, files, cwd, fun i => saveP (txt i) (path i)⟩ : Sys ι Unit).run sched).view i).resolve (path i) =
      nodeOf (cwd i) (path i) := (hsh.near i).agree.resolve _
  rw [hres, Dict.get?_set, if_pos rfl]

end

/-- Two processes that save different contents to the same file. -/
def exClash (x y : Str) : Sys Bool Unit :=
  ⟨[[], [cs!"home"]], Dict.empty, fun _ => [cs!"home"], fun b => cond b (saveP y cs!"/home/f") (saveP x cs!"/home/f")⟩

/-- Refuted part of **C137**: both processes have returned normally, and the file holds what neither of them saved. -/
theorem C137_refuted_mixture : ∃ sched, (∀ b, ((exClash cs!"aa" cs!"b").run sched).prog b = .ret ()) ∧
    ((exClash cs!"aa" cs!"b").run sched).files.get? [cs!"home", cs!"f"] = some cs!"ba" :=
  ⟨[false, false, true, true, false, false, true], fun b => by cases b <;> rfl, rfl⟩

/-- Refuted part of **C137**: the file may even hold a character that nobody wrote. -/
theorem C137_refuted_hole : ∃ sched, (∀ b, ((exClash cs!"aa" []).run sched).prog b = .ret ()) ∧
    ((exClash cs!"aa" []).run sched).files.get? [cs!"home", cs!"f"] = some [Char.ofNat 0, 'a'] :=
  ⟨[false, false, false, true, true, false], fun b => by cases b <;> rfl, rfl⟩

end
end Dissect
