import Verif.Lemmas.ConcRun

/-!
# Saving and loading at the same time

C126: several processes save files (`io_utils.save`). C127: processes load a file while another one saves it.
-/

namespace Dissect
noncomputable section
open Prog

/-! ### A save into an existing directory, system call by system call -/

theorem saveable_exists {fs : Fs} {p : Str} (h : Saveable fs p) : fs.exists_ (dirname p) = true := by
  unfold Fs.exists_
  exact decide_eq_true ⟨h.named, Or.inl h.dir⟩

theorem saveable_ne {fs : Fs} {p : Str} (h : Saveable fs p) : p ≠ [] := by
  rintro rfl
  exact h.named rfl

theorem saveable_write {fs : Fs} {p : Str} (h : Saveable fs p) (t : Str) :
    fs.write p t = .ok { fs with files := fs.files.set (fs.resolve p) t } := by
  unfold Fs.write
  rw [if_neg]
  rintro (h' | h' | h' | h')
  · exact saveable_ne h h'
  · exact h.noSlash h'
  · exact h.isFile h'
  · exact h' h.parent

theorem saveable_open {fs : Fs} {p : Str} (h : Saveable fs p) :
    fs.openCall p = (.ok (fs.resolve p), { fs with files := fs.files.set (fs.resolve p) [] }) := by
  unfold Fs.openCall
  rw [saveable_write h]

/-- Where a save stands, and what the disk then holds; `o` is the disk before. -/
inductive Saving (txt p : Str) (o : Fs) : Prog Unit → Fs → Prop
  | start : Saving txt p o (saveP txt p) o
  | opening : Saving txt p o (writeP p (.ok txt)) o
  | writing (done rest : Str) (h : done ++ rest = txt) :
      Saving txt p o (putAll (o.resolve p) done.length rest) { o with files := o.files.set (o.resolve p) done }

theorem Saving.step {txt p : Str} {o : Fs} (hs : Saveable o p) {P : Prog Unit} {g : Fs} (h : Saving txt p o P g) :
    Saving txt p o (P.step g).1 (P.step g).2 := by
  cases h with
  | start =>
    show Saving txt p o ((if o.exists_ (dirname p) = true then (.ret () : Prog Unit)
      else (makedirsP (dirname p)).bind raiseOs).bind (fun _ => writeP p (.ok txt))) o
    rw [if_pos (saveable_exists hs)]
    exact .opening
  | opening =>
    show Saving txt p o ((Prog.ofPy (o.openCall p).1).bind (fun node => (Prog.ofPy (.ok txt)).bind (putAll node 0))) (o.openCall p).2
    rw [saveable_open hs]
    exact .writing [] txt rfl
  | writing done rest h =>
    cases rest with
    | nil => exact .writing done [] h
    | cons c rest =>
      have h1 : (o.files.set (o.resolve p) done).get? (o.resolve p) = some done := by rw [Dict.get?_set, if_pos rfl]
      have h2 : Fs.putCall { o with files := o.files.set (o.resolve p) done } (o.resolve p) done.length c =
          { o with files := o.files.set (o.resolve p) (done ++ [c]) } := by
        unfold Fs.putCall
        simp only [h1, Option.getD_some, writeAt_end, set_twice]
      have h3 := Saving.writing (p := p) (o := o) (done ++ [c]) rest (by simpa using h)
      rw [List.length_append] at h3
      show Saving txt p o (putAll (o.resolve p) (done.length + 1) rest) (Fs.putCall _ _ _ _)
      rw [h2]
      exact h3

theorem saving_solo {txt p : Str} {o : Fs} (hs : Saveable o p) :
    (saveP txt p).solo o = (.ok (), { o with files := o.files.set (o.resolve p) txt }) := by
  have h1 := (saveP_does o txt p).1 { o with files := o.files.set (o.resolve p) txt } (by
    unfold Fs.save Fs.createParentDirectories
    rw [if_pos (saveable_exists hs)]
    show Main.lift (o.write p txt) = _
    rw [saveable_write hs]
    rfl)
  exact h1

theorem saving_touches {txt p : Str} {o : Fs} (hs : Saveable o p) {n : List Str} (h : (saveP txt p).touches o n) :
    n = o.resolve (dirname p) ∨ n = o.resolve p ∨ n = (o.resolve p).dropLast := by
  rcases h with h | h
  · exact Or.inl h
  · right
    replace h : ((if o.exists_ (dirname p) = true then (.ret () : Prog Unit)
      else (makedirsP (dirname p)).bind raiseOs).bind (fun _ => writeP p (.ok txt))).touches o n := h
    rw [if_pos (saveable_exists hs)] at h
    rcases h with h | h | h
    · exact Or.inl h
    · exact Or.inr h
    · replace h : ((Prog.ofPy (o.openCall p).1).bind (fun node => (Prog.ofPy (.ok txt)).bind (putAll node 0))).touches
        (o.openCall p).2 n := h
      rw [saveable_open hs] at h
      left
      have key : ∀ (rest : Str) (off : ℕ) (g : Fs), (putAll (o.resolve p) off rest).touches g n → n = o.resolve p := by
        intro rest
        induction rest with
        | nil => exact fun _ _ h => h.elim
        | cons c rest ih => exact fun off g h => h.elim id (fun h => ih _ _ h)
      exact key _ _ _ h

theorem saving_writes {txt p : Str} {o : Fs} (hs : Saveable o p) {n : List Str} (h : (saveP txt p).writes o n) :
    n = o.resolve p := by
  replace h : ((if o.exists_ (dirname p) = true then (.ret () : Prog Unit)
    else (makedirsP (dirname p)).bind raiseOs).bind (fun _ => writeP p (.ok txt))).writes o n := h
  rw [if_pos (saveable_exists hs)] at h
  rcases h with h | h
  · exact h.1
  · replace h : ((Prog.ofPy (o.openCall p).1).bind (fun node => (Prog.ofPy (.ok txt)).bind (putAll node 0))).writes
      (o.openCall p).2 n := h
    rw [saveable_open hs] at h
    have key : ∀ (rest : Str) (off : ℕ) (g : Fs), (putAll (o.resolve p) off rest).writes g n → n = o.resolve p := by
      intro rest
      induction rest with
      | nil => exact fun _ _ h => h.elim
      | cons c rest ih => exact fun off g h => h.elim id (fun h => ih _ _ h)
    exact key _ _ _ h

theorem saving_steps {txt p : Str} {o : Fs} (hs : Saveable o p) : (saveP txt p).steps o = txt.length + 2 := by
  show ((if o.exists_ (dirname p) = true then (.ret () : Prog Unit)
    else (makedirsP (dirname p)).bind raiseOs).bind (fun _ => writeP p (.ok txt))).steps o + 1 = _
  rw [if_pos (saveable_exists hs)]
  show ((Prog.ofPy (o.openCall p).1).bind (fun node => (Prog.ofPy (.ok txt)).bind (putAll node 0))).steps (o.openCall p).2 + 1 + 1 = _
  rw [saveable_open hs]
  have key : ∀ (rest : Str) (off : ℕ) (g : Fs), (putAll (o.resolve p) off rest).steps g = rest.length := by
    intro rest
    induction rest with
    | nil => exact fun _ _ => rfl
    | cons c rest ih =>
      intro off g
      show (putAll (o.resolve p) (off + 1) rest).steps _ + 1 = _
      rw [ih]
      rfl
  exact congrArg (· + 2) (key txt 0 _)

/-! ### C126 -/

section
variable {ι : Type} [DecidableEq ι] {dirs : List (List Str)} {files : Dict (List Str) Str} {cwd : ι → List Str}

/-- **C126** (partial: the directories exist). Any number of processes that save different files into existing
directories: whatever the schedule, a process that has had one turn per character and two more has returned normally,
and its file holds exactly what it saved. -/
theorem C126_save_partial (txt path : ι → Str) (hs : ∀ i, Saveable ⟨cwd i, dirs, files⟩ (path i))
    (hne : ∀ i j, i ≠ j → nodeOf (cwd i) (path i) ≠ nodeOf (cwd j) (path j)) (sched : List ι) (i : ι)
    (hn : (txt i).length + 2 ≤ sched.count i) :
    ((⟨dirs, files, cwd, fun i => saveP (txt i) (path i)⟩ : Sys ι Unit).run sched).prog i = .ret () ∧
      (((⟨dirs, files, cwd, fun i => saveP (txt i) (path i)⟩ : Sys ι Unit).run sched).view i).read (path i) = .ok (txt i) := by
  have hsep : (⟨dirs, files, cwd, fun i => saveP (txt i) (path i)⟩ : Sys ι Unit).Separate := by
    intro i j hij n hw ht
    have h1 : n = nodeOf (cwd i) (path i) := saving_writes (hs i) hw
    have h0 : n ∉ dirs := by rw [h1]; exact (hs i).isFile
    rcases saving_touches (hs j) ht with h | h | h
    · exact h0 (by rw [h]; exact (hs j).dir)
    · exact hne i j hij (h1.symm.trans h)
    · exact h0 (by rw [h]; exact (hs j).parent)
  obtain ⟨f, h, h'⟩ := Sys.Sim.run hsep sched (Sys.Sim.start _)
  have hd := Prog.steps_zero (by
    rw [h' i]
    show (saveP (txt i) (path i)).steps ⟨cwd i, dirs, files⟩ - _ = 0
    rw [saving_steps (hs i)]
    omega)
  obtain ⟨h1, h2⟩ := Prog.done_eq hd (f i)
  rw [h.solo i] at h1 h2
  replace h1 : _ = Prog.ofMain ((saveP (txt i) (path i)).solo ⟨cwd i, dirs, files⟩).1 := h1
  replace h2 : ((saveP (txt i) (path i)).solo ⟨cwd i, dirs, files⟩).2 = f i := h2
  rw [saving_solo (hs i)] at h1 h2
  refine ⟨h1, ?_⟩
  have ht : (saveP (txt i) (path i)).touches ⟨cwd i, dirs, files⟩ (nodeOf (cwd i) (path i)) := by
    right
    show ((if (⟨cwd i, dirs, files⟩ : Fs).exists_ (dirname (path i)) = true then (.ret () : Prog Unit)
      else (makedirsP (dirname (path i))).bind raiseOs).bind (fun _ => writeP (path i) (.ok (txt i)))).touches _ _
    rw [if_pos (saveable_exists (hs i))]
    exact Or.inl rfl
  have h3 := ((h.agree i).get? ht)
  unfold Fs.read
  rw [if_neg (saveable_ne (hs i))]
  have hres : (((⟨dirs, files, cwd, fun i => saveP (txt i) (path i)⟩ : Sys ι Unit).run sched).view i).resolve (path i) =
      nodeOf (cwd i) (path i) := by
    show nodeOf (((⟨dirs, files, cwd, fun i => saveP (txt i) (path i)⟩ : Sys ι Unit).run sched).cwd i) (path i) = _
    rw [h.cwd]
  rw [hres, h3, ← h2]
  have : (files.set (nodeOf (cwd i) (path i)) (txt i)).get? (nodeOf (cwd i) (path i)) = some (txt i) := by
    rw [Dict.get?_set, if_pos rfl]
  show (match (files.set (nodeOf (cwd i) (path i)) (txt i)).get? (nodeOf (cwd i) (path i)) with
    | some s => (.ok s : Py Str)
    | none => .error .ioError) = _
  rw [this]

end

/-- A disk with the root and a home directory only. -/
def exBare : Fs := ⟨[cs!"home"], [[], [cs!"home"]], Dict.empty⟩

/-- Two processes that save `/out/a` and `/out/b`; there is no directory `/out`. -/
def exRace (x y : Str) : Sys Bool Unit :=
  ⟨exBare.dirs, exBare.files, fun _ => exBare.cwd, fun b => cond b (saveP y cs!"/out/b") (saveP x cs!"/out/a")⟩

theorem makedirsP_out : makedirsP cs!"/out" = .stat cs!"/" (fun b => if b then .mkdir cs!"/out" .ret
    else (makedirsP cs!"/").bind (fun r => if r = some .other then .ret r else .mkdir cs!"/out" .ret)) := by
  rw [makedirsP]
  rw [dif_pos (by decide)]
  rfl

theorem saveP_out (t : Str) {p : Str} (hp : dirname p = cs!"/out") :
    saveP t p = .stat cs!"/out" (fun b => (if b then (.ret () : Prog Unit) else
      (Prog.stat cs!"/" (fun b => if b then .mkdir cs!"/out" .ret
        else (makedirsP cs!"/").bind (fun r => if r = some .other then .ret r else .mkdir cs!"/out" .ret))).bind raiseOs).bind
        (fun _ => writeP p (.ok t))) := by
  unfold saveP createParentP
  rw [hp, makedirsP_out]
  rfl

/-- Refuted part of **C126**: processes that save different files into a directory that does not exist yet can fail.
Alone, either succeeds. -/
theorem C126_refuted_new_directory (x y : Str) :
    (∃ g, (saveP x cs!"/out/a").solo exBare = (.ok (), g)) ∧ (∃ g, (saveP y cs!"/out/b").solo exBare = (.ok (), g)) ∧
    ∃ sched, ((exRace x y).run sched).prog false = .raise (.raised .osError) := by
  refine ⟨?_, ?_, ?_⟩
  · rw [saveP_out x (p := cs!"/out/a") rfl]
    exact ⟨_, putAll_solo [cs!"out", cs!"a"] x [] ⟨[cs!"home"], [[cs!"out"], [], [cs!"home"]], Dict.empty⟩⟩
  · rw [saveP_out y (p := cs!"/out/b") rfl]
    exact ⟨_, putAll_solo [cs!"out", cs!"b"] y [] ⟨[cs!"home"], [[cs!"out"], [], [cs!"home"]], Dict.empty⟩⟩
  · refine ⟨[false, false, true, true, true, false], ?_⟩
    unfold exRace
    rw [saveP_out x (p := cs!"/out/a") rfl, saveP_out y (p := cs!"/out/b") rfl]
    rfl

/-- A concrete instance of `C126_save_partial`: two files in the home directory. -/
theorem exSave_ok : ∀ b, Saveable ⟨[cs!"home"], [[], [cs!"home"]], Dict.empty⟩ (cond b cs!"/home/b" cs!"./a") := by
  intro b
  cases b
  · exact ⟨by decide, by decide, by decide, by decide, by decide⟩
  · exact ⟨by decide, by decide, by decide, by decide, by decide⟩

/-! ### C127 -/

theorem ReadOnly.step {α : Type} {P : Prog α} (h : P.ReadOnly) (g : Fs) : (P.step g).1.ReadOnly ∧ (P.step g).2 = g := by
  cases h with
  | ret a => exact ⟨.ret a, rfl⟩
  | raise e => exact ⟨.raise e, rfl⟩
  | stat p k h => exact ⟨h _, rfl⟩
  | list p k h => exact ⟨h _, rfl⟩
  | read p k h => exact ⟨h _, rfl⟩

theorem bind_ret_step {α : Type} (P : Prog Unit) (a : α) (g : Fs) :
    (P.bind fun _ => .ret a).step g = ((P.step g).1.bind fun _ => .ret a, (P.step g).2) := by
  cases P <;> rfl

theorem saving_disk {txt p : Str} {o g : Fs} {P : Prog Unit} (h : Saving txt p o P g) :
    g = o ∨ ∃ done, done <+: txt ∧ g = { o with files := o.files.set (o.resolve p) done } := by
  cases h with
  | start => exact Or.inl rfl
  | opening => exact Or.inl rfl
  | writing done rest h => exact Or.inr ⟨done, ⟨rest, h⟩, rfl⟩

section
variable {ι α : Type} [DecidableEq ι]

/-- One process saves, the others only read: how far the save has come. -/
structure OneSaves (s0 s : Sys ι α) (i : ι) (txt p : Str) (a : α) : Prop where
  cwd : s.cwd = s0.cwd
  writer : ∃ P, s.prog i = (P.bind fun _ => .ret a) ∧ Saving txt p (s0.view i) P (s.view i)
  readers : ∀ j, j ≠ i → (s.prog j).ReadOnly

theorem OneSaves.step {s0 s : Sys ι α} {i : ι} {txt p : Str} {a : α} (hs : Saveable (s0.view i) p)
    (h : OneSaves s0 s i txt p a) (j : ι) : OneSaves s0 (s.step j) i txt p a := by
  by_cases hj : j = i
  · subst hj
    obtain ⟨P, h1, h2⟩ := h.writer
    refine ⟨h.cwd, ⟨(P.step (s.view j)).1, ?_, ?_⟩, fun k hk => ?_⟩
    · show Function.update s.prog j _ j = _
      rw [Function.update_self, h1, bind_ret_step]
    · have := Sys.view_step_self s j (Sys.step_cwd _ _)
      rw [this, h1, bind_ret_step]
      exact h2.step hs
    · show (Function.update s.prog j _ k).ReadOnly
      rw [Function.update_of_ne hk]
      exact h.readers k hk
  · obtain ⟨h1, h2⟩ := ReadOnly.step (h.readers j hj) (s.view j)
    have hd : (s.step j).dirs = s.dirs ∧ (s.step j).files = s.files := by
      constructor
      · show ((s.prog j).step (s.view j)).2.dirs = _
        rw [h2]; rfl
      · show ((s.prog j).step (s.view j)).2.files = _
        rw [h2]; rfl
    obtain ⟨P, h3, h4⟩ := h.writer
    refine ⟨h.cwd, ⟨P, ?_, ?_⟩, fun k hk => ?_⟩
    · show Function.update s.prog j _ i = _
      rw [Function.update_of_ne (Ne.symm hj)]
      exact h3
    · have : (s.step j).view i = s.view i := by
        show (⟨s.cwd i, (s.step j).dirs, (s.step j).files⟩ : Fs) = ⟨s.cwd i, s.dirs, s.files⟩
        rw [hd.1, hd.2]
      rw [this]
      exact h4
    · show (Function.update s.prog j _ k).ReadOnly
      by_cases hk' : k = j
      · subst hk'
        rw [Function.update_self]
        exact h1
      · rw [Function.update_of_ne hk']
        exact h.readers k hk

theorem OneSaves.run {s0 : Sys ι α} {i : ι} {txt p : Str} {a : α} (hs : Saveable (s0.view i) p) :
    ∀ (sched : List ι) {s : Sys ι α}, OneSaves s0 s i txt p a → OneSaves s0 (s.run sched) i txt p a
  | [], _, h => h
  | j :: sched, _, h => OneSaves.run hs sched (h.step hs j)

theorem OneSaves.start {s : Sys ι α} {i : ι} {txt p : Str} {a : α} (hw : s.prog i = (saveP txt p).bind fun _ => .ret a)
    (hr : ∀ j, j ≠ i → (s.prog j).ReadOnly) : OneSaves s s i txt p a :=
  ⟨rfl, ⟨_, hw, .start⟩, hr⟩

/-- **C127** (partial). While one process saves a file and any number of others only read: at every moment the file has
its old content or an initial part of the new one, and everything else is as it was. -/
theorem C127_disk_partial {s : Sys ι α} {i : ι} {txt p : Str} {a : α} (hs : Saveable (s.view i) p)
    (hw : s.prog i = (saveP txt p).bind fun _ => .ret a) (hr : ∀ j, j ≠ i → (s.prog j).ReadOnly) (sched : List ι) :
    (s.run sched).dirs = s.dirs ∧
      (∀ n, n ≠ nodeOf (s.cwd i) p → (s.run sched).files.get? n = s.files.get? n) ∧
      ((s.run sched).files.get? (nodeOf (s.cwd i) p) = s.files.get? (nodeOf (s.cwd i) p) ∨
        ∃ part, part <+: txt ∧ (s.run sched).files.get? (nodeOf (s.cwd i) p) = some part) := by
  obtain ⟨-, ⟨P, -, h⟩, -⟩ := OneSaves.run hs sched (OneSaves.start hw hr)
  rcases saving_disk h with h | ⟨part, hp, h⟩
  · have h1 : (s.run sched).dirs = s.dirs := congrArg Fs.dirs h
    have h2 : (s.run sched).files = s.files := congrArg Fs.files h
    exact ⟨h1, fun n _ => by rw [h2], Or.inl (by rw [h2])⟩
  · have h1 : (s.run sched).dirs = s.dirs := congrArg Fs.dirs h
    have h2 : (s.run sched).files = s.files.set (nodeOf (s.cwd i) p) part := congrArg Fs.files h
    refine ⟨h1, fun n hn => ?_, Or.inr ⟨part, hp, ?_⟩⟩
    · rw [h2, Dict.get?_set, if_neg hn]
    · rw [h2, Dict.get?_set, if_pos rfl]

/-- **C127** (partial). When the writer has had one turn per character and two more, the file holds the new content,
however often the others have read in between. -/
theorem C127_complete_partial {s : Sys ι α} {i : ι} {txt p : Str} {a : α} (hs : Saveable (s.view i) p)
    (hw : s.prog i = (saveP txt p).bind fun _ => .ret a) (hr : ∀ j, j ≠ i → (s.prog j).ReadOnly) (sched : List ι)
    (hd : ((s.run sched).prog i).Done) :
    (s.run sched).prog i = .ret a ∧ (s.run sched).files.get? (nodeOf (s.cwd i) p) = some txt := by
  obtain ⟨-, ⟨P, h1, h⟩, -⟩ := OneSaves.run hs sched (OneSaves.start hw hr)
  rw [h1] at hd ⊢
  generalize hg : (s.run sched).view i = g at h
  cases h with
  | start => exact hd.elim
  | opening => exact hd.elim
  | writing part rest h =>
    cases rest with
    | cons c rest => exact hd.elim
    | nil =>
      refine ⟨rfl, ?_⟩
      have h2 : (s.run sched).files = s.files.set (nodeOf (s.cwd i) p) part := congrArg Fs.files hg
      rw [List.append_nil] at h
      rw [h2, Dict.get?_set, if_pos rfl, h]

/-- **C127** (partial). A process that loads the file meanwhile gets the old content or an initial part of the new one. -/
theorem C127_load_partial {s : Sys ι Str} {i j : ι} (hij : j ≠ i) {txt p q a : Str} (hs : Saveable (s.view i) p)
    (hw : s.prog i = (saveP txt p).bind fun _ => .ret a) (hr : ∀ k, k ≠ i → (s.prog k).ReadOnly)
    (hj : s.prog j = readP q) (sched : List ι) (hd : ((s.run sched).prog j).Done) :
    (s.run sched).prog j = Prog.ofPy ((s.view j).read q) ∨ ∃ part, part <+: txt ∧ (s.run sched).prog j = .ret part := by
  have key : ∀ (sched : List ι) (s' : Sys ι Str), OneSaves s s' i txt p a →
      (s'.prog j = readP q ∨ s'.prog j = Prog.ofPy ((s.view j).read q) ∨ ∃ part, part <+: txt ∧ s'.prog j = .ret part) →
      ((s'.run sched).prog j = readP q ∨ (s'.run sched).prog j = Prog.ofPy ((s.view j).read q) ∨
        ∃ part, part <+: txt ∧ (s'.run sched).prog j = .ret part) := by
    intro sched
    induction sched with
    | nil => exact fun _ _ h => h
    | cons k sched ih =>
      intro s' h1 h2
      refine ih (s'.step k) (h1.step hs k) ?_
      by_cases hk : k = j
      · subst hk
        have hself : (s'.step k).prog k = ((s'.prog k).step (s'.view k)).1 := Function.update_self _ _ _
        rw [hself]
        rcases h2 with h2 | h2 | ⟨part, hp, h2⟩
        · right
          rw [h2]
          obtain ⟨hc, ⟨P, -, h⟩, -⟩ := h1
          have hread : ∀ g : Fs, g = s'.view k → ((readP q).step g).1 = Prog.ofPy (g.read q) := fun _ _ => rfl
          rw [hread _ rfl]
          have hck : s'.cwd k = s.cwd k := by rw [hc]
          rcases saving_disk h with h | ⟨part, hp, h⟩
          · left
            have h1 : s'.dirs = s.dirs := congrArg Fs.dirs h
            have h2 : s'.files = s.files := congrArg Fs.files h
            have : s'.view k = s.view k := by
              show (⟨s'.cwd k, s'.dirs, s'.files⟩ : Fs) = ⟨s.cwd k, s.dirs, s.files⟩
              rw [h1, h2, hck]
            rw [this]
          · have h2 : s'.files = s.files.set (nodeOf (s.cwd i) p) part := congrArg Fs.files h
            by_cases hq : q = []
            · left
              unfold Fs.read
              rw [if_pos hq, if_pos hq]
            · by_cases hn : nodeOf (s.cwd k) q = nodeOf (s.cwd i) p
              · right
                refine ⟨part, hp, ?_⟩
                have : (s'.view k).read q = .ok part := by
                  unfold Fs.read
                  rw [if_neg hq]
                  show (match s'.files.get? (nodeOf (s'.cwd k) q) with
                    | some s => (.ok s : Py Str)
                    | none => .error .ioError) = _
                  rw [h2, hck, hn, Dict.get?_set, if_pos rfl]
                rw [this]
                rfl
              · left
                congr 1
                unfold Fs.read
                rw [if_neg hq, if_neg hq]
                show (match s'.files.get? (nodeOf (s'.cwd k) q) with
                    | some s => (.ok s : Py Str)
                    | none => .error .ioError) = (match s.files.get? (nodeOf (s.cwd k) q) with
                    | some s => (.ok s : Py Str)
                    | none => .error .ioError)
                rw [h2, hck, Dict.get?_set, if_neg hn]
        · right; left
          rw [h2]
          cases (s.view k).read q <;> rfl
        · right; right
          exact ⟨part, hp, by rw [h2]; rfl⟩
      · have : (s'.step k).prog j = s'.prog j := Function.update_of_ne (Ne.symm hk) _ _
        rw [this]
        exact h2
  rcases key sched s (OneSaves.start hw hr) (Or.inl hj) with h | h
  · rw [h] at hd
    exact hd.elim
  · exact h

end

/-- A file that holds `x`, a process that saves `y` there, and a process that loads the file. -/
def exLoad (x y : Str) : Sys Bool Str :=
  ⟨[[], [cs!"home"]], Dict.empty.set [cs!"home", cs!"f"] x, fun _ => [cs!"home"],
    fun b => cond b (readP cs!"/home/f") ((saveP y cs!"/home/f").bind fun _ => .ret [])⟩

/-- Refuted part of **C127**: a process may load something that is neither the old nor the new content. -/
theorem C127_refuted_half_written {x y : Str} (hx : x ≠ []) (hy : y ≠ []) :
    ∃ sched part, ((exLoad x y).run sched).prog true = .ret part ∧ part ≠ x ∧ part ≠ y :=
  ⟨[false, false, true], [], rfl, Ne.symm hx, Ne.symm hy⟩

/-- The hypotheses of the partial theorems are met by `exLoad`. -/
theorem exLoad_ok (x y : Str) : Saveable ((exLoad x y).view false) cs!"/home/f" ∧
    (∀ j, j ≠ false → ((exLoad x y).prog j).ReadOnly) ∧ (exLoad x y).prog true = readP cs!"/home/f" := by
  refine ⟨⟨?_, by decide, ?_, ?_, by decide⟩, ?_, rfl⟩
  · show [cs!"home"] ∈ ([[], [cs!"home"]] : List (List Str)); decide
  · show [cs!"home"] ∈ ([[], [cs!"home"]] : List (List Str)); decide
  · show [cs!"home", cs!"f"] ∉ ([[], [cs!"home"]] : List (List Str)); decide
  · intro j hj
    cases j
    · exact absurd rfl hj
    · refine .read _ _ (fun r => ?_)
      cases r
      · exact .raise _
      · exact .ret _

end
end Dissect
