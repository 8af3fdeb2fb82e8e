import Verif.Spec.Conc
import Verif.Lemmas.Py

/-! # Processes that do not get in each other's way: the simulation -/

namespace Dissect
noncomputable section
open Classical

/-- Two disks agree about the nodes in `T`, also about the order in which they are listed. -/
structure Agree (T : List Str → Prop) (a b : Fs) : Prop where
  cwd : a.cwd = b.cwd
  dirs : a.dirs.filter (fun n => decide (T n)) = b.dirs.filter (fun n => decide (T n))
  files : a.files.entries.filter (fun e => decide (T e.1)) = b.files.entries.filter (fun e => decide (T e.1))

theorem filter_setEntries' {κ β : Type} [DecidableEq κ] (k : κ) (v : β) (q : κ → Bool) (l : List (κ × β)) :
    (Dict.setEntries k v l).filter (fun e => q e.1) =
      if q k = true then Dict.setEntries k v (l.filter (fun e => q e.1)) else l.filter (fun e => q e.1) := by
  induction l with
  | nil => cases h : q k <;> simp [Dict.setEntries, h]
  | cons e es ih =>
    by_cases he : e.1 = k
    · subst he
      rw [show Dict.setEntries e.1 v (e :: es) = (e.1, v) :: es from by rw [Dict.setEntries, if_pos rfl]]
      cases h : q e.1
      · simp [h]
      · simp [h, Dict.setEntries]
    · rw [show Dict.setEntries k v (e :: es) = e :: Dict.setEntries k v es from by rw [Dict.setEntries, if_neg he]]
      rw [List.filter_cons, ih]
      cases h : q e.1
      · simp [h]
      · cases hk : q k
        · simp [h]
        · simp [h, Dict.setEntries, he]

namespace Agree
variable {T : List Str → Prop} {a b : Fs}

theorem refl (T : List Str → Prop) (a : Fs) : Agree T a a := ⟨rfl, rfl, rfl⟩

theorem symm (h : Agree T a b) : Agree T b a := ⟨h.cwd.symm, h.dirs.symm, h.files.symm⟩

theorem trans {c : Fs} (h : Agree T a b) (g : Agree T b c) : Agree T a c :=
  ⟨h.cwd.trans g.cwd, h.dirs.trans g.dirs, h.files.trans g.files⟩

theorem resolve (h : Agree T a b) (p : Str) : a.resolve p = b.resolve p := by
  unfold Fs.resolve; rw [h.cwd]

theorem mem_dirs (h : Agree T a b) {n : List Str} (hn : T n) : n ∈ a.dirs ↔ n ∈ b.dirs := by
  have : n ∈ a.dirs.filter (fun n => decide (T n)) ↔ n ∈ b.dirs.filter (fun n => decide (T n)) := by rw [h.dirs]
  simpa [List.mem_filter, hn] using this

theorem get? (h : Agree T a b) {n : List Str} (hn : T n) : a.files.get? n = b.files.get? n := by
  apply Option.ext
  intro y
  rw [Dict.get?_eq_some_iff, Dict.get?_eq_some_iff]
  have : (n, y) ∈ a.files.entries.filter (fun e => decide (T e.1)) ↔
      (n, y) ∈ b.files.entries.filter (fun e => decide (T e.1)) := by rw [h.files]
  simpa [List.mem_filter, hn] using this

theorem sameAt (h : Agree T a b) {n : List Str} (hn : T n) : SameAt a b n := ⟨h.mem_dirs hn, h.get? hn⟩

theorem contains (h : Agree T a b) {n : List Str} (hn : T n) : a.files.contains n = b.files.contains n := by
  rw [Bool.eq_iff_iff, Dict.contains_iff, Dict.contains_iff, h.get? hn]

theorem exists_ (h : Agree T a b) {p : Str} (hn : T (b.resolve p)) : a.exists_ p = b.exists_ p := by
  unfold Fs.exists_
  rw [h.resolve, h.contains hn]
  have := h.mem_dirs hn
  exact decide_eq_decide.2 (by rw [this])

theorem read (h : Agree T a b) {p : Str} (hn : T (b.resolve p)) : a.read p = b.read p := by
  unfold Fs.read
  rw [h.resolve, h.get? hn]

theorem keys (h : Agree T a b) :
    a.files.keys.filter (fun n => decide (T n)) = b.files.keys.filter (fun n => decide (T n)) := by
  unfold Dict.keys
  rw [List.filter_map, List.filter_map]
  have := h.files
  unfold Function.comp
  rw [this]

theorem children (h : Agree T a b) {d : List Str} (hd : ∀ n, n ≠ [] → n.dropLast = d → T n) :
    a.children d = b.children d := by
  have key : ∀ l : List (List Str), l.filter (fun p => decide (p ≠ [] ∧ p.dropLast = d)) =
      (l.filter (fun n => decide (T n))).filter (fun p => decide (p ≠ [] ∧ p.dropLast = d)) := by
    intro l
    rw [List.filter_filter]
    apply List.filter_congr
    intro x _
    by_cases hx : x ≠ [] ∧ x.dropLast = d
    · simp [hx, hd x hx.1 hx.2]
    · simp only [hx, decide_false, Bool.false_and]
  unfold Fs.children
  have hall : (a.dirs ++ a.files.keys).filter (fun n => decide (T n)) = (b.dirs ++ b.files.keys).filter (fun n => decide (T n)) := by
    rw [List.filter_append, h.dirs, h.keys, ← List.filter_append]
  rw [key (a.dirs ++ a.files.keys), key (b.dirs ++ b.files.keys), hall]

theorem listdir (h : Agree T a b) {p : Str} (hn : T (b.resolve p))
    (hd : ∀ n, n ≠ [] → n.dropLast = b.resolve p → T n) : a.listdir id p = b.listdir id p := by
  unfold Fs.listdir
  rw [h.resolve, h.children hd]
  have := h.mem_dirs hn
  by_cases hc : p ≠ [] ∧ b.resolve p ∈ b.dirs
  · rw [if_pos hc, if_pos ⟨hc.1, this.2 hc.2⟩]
  · rw [if_neg hc, if_neg (fun h => hc ⟨h.1, this.1 h.2⟩)]

theorem setFile (h : Agree T a b) (n : List Str) (v : Str) :
    Agree T { a with files := a.files.set n v } { b with files := b.files.set n v } := by
  refine ⟨h.cwd, h.dirs, ?_⟩
  show (Dict.setEntries n v a.files.entries).filter _ = (Dict.setEntries n v b.files.entries).filter _
  rw [filter_setEntries' n v (fun n => decide (T n)), filter_setEntries' n v (fun n => decide (T n)), h.files]

theorem setOutside (n : List Str) (v : Str) (hn : ¬ T n) : Agree T { a with files := a.files.set n v } a := by
  refine ⟨rfl, rfl, ?_⟩
  show (Dict.setEntries n v a.files.entries).filter _ = _
  rw [filter_setEntries' n v (fun n => decide (T n)), if_neg (by simpa using hn)]

theorem addDir (h : Agree T a b) (n : List Str) : Agree T { a with dirs := n :: a.dirs } { b with dirs := n :: b.dirs } := by
  refine ⟨h.cwd, ?_, h.files⟩
  show (n :: a.dirs).filter _ = (n :: b.dirs).filter _
  rw [List.filter_cons, List.filter_cons, h.dirs]

theorem addDirOutside (n : List Str) (hn : ¬ T n) : Agree T { a with dirs := n :: a.dirs } a := by
  refine ⟨rfl, ?_, rfl⟩
  show (n :: a.dirs).filter _ = _
  rw [List.filter_cons_of_neg (by simpa using hn)]

theorem mkdirCall (h : Agree T a b) {p : Str} (hn : T (b.resolve p)) (hd : T (b.resolve p).dropLast) :
    (a.mkdirCall p).1 = (b.mkdirCall p).1 ∧ Agree T (a.mkdirCall p).2 (b.mkdirCall p).2 := by
  unfold Fs.mkdirCall Fs.mkdir
  rw [h.exists_ hn, h.resolve]
  have hm := h.mem_dirs hd
  by_cases hc : p = [] ∨ b.exists_ p = true ∨ (b.resolve p).dropLast ∉ b.dirs
  · rw [if_pos hc, if_pos (by rw [hm]; exact hc)]
    exact ⟨rfl, h⟩
  · rw [if_neg hc, if_neg (by rw [hm]; exact hc)]
    exact ⟨rfl, h.addDir _⟩

theorem openCall (h : Agree T a b) {p : Str} (hn : T (b.resolve p)) (hd : T (b.resolve p).dropLast) :
    (a.openCall p).1 = (b.openCall p).1 ∧ Agree T (a.openCall p).2 (b.openCall p).2 := by
  unfold Fs.openCall Fs.write
  rw [h.resolve]
  have hm := h.mem_dirs hd
  have hm' := h.mem_dirs hn
  by_cases hc : p = [] ∨ p.getLast? = some '/' ∨ b.resolve p ∈ b.dirs ∨ (b.resolve p).dropLast ∉ b.dirs
  · rw [if_pos hc, if_pos (by rw [hm, hm']; exact hc)]
    exact ⟨rfl, h⟩
  · rw [if_neg hc, if_neg (by rw [hm, hm']; exact hc)]
    exact ⟨rfl, h.setFile _ _⟩

theorem putCall (h : Agree T a b) {n : List Str} (hn : T n) (off : ℕ) (c : Char) :
    Agree T (a.putCall n off c) (b.putCall n off c) := by
  unfold Fs.putCall
  rw [h.get? hn]
  exact h.setFile _ _

end Agree

namespace Prog
variable {α : Type}

theorem steps_zero {P : Prog α} {fs : Fs} (h : P.steps fs = 0) : P.Done := by
  cases P <;> simp_all [steps, Done]

theorem steps_done {P : Prog α} (h : P.Done) (fs : Fs) : P.steps fs = 0 := by
  cases P <;> simp_all [steps, Done]

theorem done_eq {P : Prog α} (h : P.Done) (fs : Fs) : P = ofMain (P.solo fs).1 ∧ (P.solo fs).2 = fs := by
  cases P <;> simp_all [solo, Done, ofMain]

theorem solo_step (P : Prog α) (fs : Fs) : (P.step fs).1.solo (P.step fs).2 = P.solo fs := by
  cases P <;> rfl

theorem steps_step (P : Prog α) (fs : Fs) : (P.step fs).1.steps (P.step fs).2 = P.steps fs - 1 := by
  cases P <;> rfl

theorem touches_step (P : Prog α) (fs : Fs) {n : List Str} (h : (P.step fs).1.touches (P.step fs).2 n) :
    P.touches fs n := by
  cases P <;> simp_all [touches, step]

theorem writes_step (P : Prog α) (fs : Fs) {n : List Str} (h : (P.step fs).1.writes (P.step fs).2 n) :
    P.writes fs n := by
  cases P <;> simp_all [writes, step]

theorem writes_touches (P : Prog α) : ∀ (fs : Fs) {n : List Str}, P.writes fs n → P.touches fs n := by
  induction P with
  | ret a => exact fun _ _ h => h
  | raise e => exact fun _ _ h => h
  | stat p k ih => exact fun fs n h => Or.inr (ih _ fs h)
  | list p k ih => exact fun fs n h => Or.inr (Or.inr (ih _ fs h))
  | mkdir p k ih => exact fun fs n h => h.elim (fun h => Or.inl h.1) (fun h => Or.inr (Or.inr (ih _ _ h)))
  | read p k ih => exact fun fs n h => Or.inr (ih _ fs h)
  | openW p k ih => exact fun fs n h => h.elim (fun h => Or.inl h.1) (fun h => Or.inr (Or.inr (ih _ _ h)))
  | put m off c k ih => exact fun fs n h => h.elim Or.inl (fun h => Or.inr (ih _ h))

/-- A system call gives the same result on two disks that agree about the nodes it looks at. -/
theorem step_agree (P : Prog α) {T : List Str → Prop} {a b : Fs} (h : Agree T a b)
    (hT : ∀ n, P.touches b n → T n) : (P.step a).1 = (P.step b).1 ∧ Agree T (P.step a).2 (P.step b).2 := by
  cases P with
  | ret x => exact ⟨rfl, h⟩
  | raise e => exact ⟨rfl, h⟩
  | stat p k => exact ⟨congrArg k (h.exists_ (hT _ (Or.inl rfl))), h⟩
  | list p k =>
    exact ⟨congrArg k (h.listdir (hT _ (Or.inl rfl)) (fun n h1 h2 => hT n (Or.inr (Or.inl ⟨h1, h2⟩)))), h⟩
  | mkdir p k =>
    obtain ⟨e1, e2⟩ := h.mkdirCall (p := p) (hT _ (Or.inl rfl)) (hT _ (Or.inr (Or.inl rfl)))
    exact ⟨congrArg k e1, e2⟩
  | read p k => exact ⟨congrArg k (h.read (hT _ (Or.inl rfl))), h⟩
  | openW p k =>
    obtain ⟨e1, e2⟩ := h.openCall (p := p) (hT _ (Or.inl rfl)) (hT _ (Or.inr (Or.inl rfl)))
    exact ⟨congrArg k e1, e2⟩
  | put m off c k => exact ⟨rfl, h.putCall (hT _ (Or.inl rfl)) off c⟩

/-- The writes of the next call, on a disk that agrees. -/
theorem writes_call (P : Prog α) {T : List Str → Prop} {a b : Fs} (h : Agree T a b)
    (hT : ∀ n, P.touches b n → T n) {S : List Str → Prop} (hS : ∀ n, P.writes b n → ¬ S n) :
    Agree S (P.step a).2 a := by
  cases P with
  | ret x => exact Agree.refl _ _
  | raise e => exact Agree.refl _ _
  | stat p k => exact Agree.refl _ _
  | list p k => exact Agree.refl _ _
  | mkdir p k =>
    obtain ⟨e1, e2⟩ := h.mkdirCall (p := p) (hT _ (Or.inl rfl)) (hT _ (Or.inr (Or.inl rfl)))
    have hr := h.resolve p
    have hS' := fun h => hS (b.resolve p) (Or.inl ⟨rfl, h⟩)
    rw [← e1, ← hr] at hS'
    show Agree S (a.mkdirCall p).2 a
    unfold Fs.mkdirCall Fs.mkdir at hS' ⊢
    split at hS' <;> rename_i g hg
    · split at hg
      · cases hg
      · injection hg with hg
        subst hg
        exact Agree.addDirOutside _ (hS' rfl)
    · exact Agree.refl _ _
  | read p k => exact Agree.refl _ _
  | openW p k =>
    obtain ⟨e1, e2⟩ := h.openCall (p := p) (hT _ (Or.inl rfl)) (hT _ (Or.inr (Or.inl rfl)))
    have hr := h.resolve p
    have hS' := fun h => hS (b.resolve p) (Or.inl ⟨rfl, h⟩)
    rw [← e1, ← hr] at hS'
    show Agree S (a.openCall p).2 a
    unfold Fs.openCall Fs.write at hS' ⊢
    split at hS' <;> rename_i g hg
    · split at hg
      · cases hg
      · injection hg with hg
        subst hg
        exact Agree.setOutside _ _ (hS' ⟨_, rfl⟩)
    · exact Agree.refl _ _
  | put m off c k => exact Agree.setOutside _ _ (hS m (Or.inl rfl))

end Prog

namespace Sys
variable {ι α : Type} [DecidableEq ι]

/-- Where every process would be had it run alone. -/
structure Sim (s0 s : Sys ι α) (f : ι → Fs) : Prop where
  cwd : s.cwd = s0.cwd
  solo : ∀ i, (s.prog i).solo (f i) = (s0.prog i).solo (s0.view i)
  touches : ∀ i n, (s.prog i).touches (f i) n → (s0.prog i).touches (s0.view i) n
  writes : ∀ i n, (s.prog i).writes (f i) n → (s0.prog i).writes (s0.view i) n
  agree : ∀ i, Agree ((s0.prog i).touches (s0.view i)) (s.view i) (f i)
  other : ∀ n, (∀ i, ¬ (s0.prog i).writes (s0.view i) n) → ∀ i, SameAt (s.view i) (s0.view i) n

omit [DecidableEq ι] in
theorem Sim.start (s : Sys ι α) : Sim s s s.view :=
  ⟨rfl, fun _ => rfl, fun _ _ h => h, fun _ _ h => h, fun _ => Agree.refl _ _, fun _ _ _ => ⟨Iff.rfl, rfl⟩⟩

theorem view_step_self (s : Sys ι α) (i : ι) (hc : ((s.prog i).step (s.view i)).2.cwd = s.cwd i) :
    (s.step i).view i = ((s.prog i).step (s.view i)).2 := by
  show (⟨s.cwd i, ((s.prog i).step (s.view i)).2.dirs, ((s.prog i).step (s.view i)).2.files⟩ : Fs) = _
  rw [← hc]

omit [DecidableEq ι] in
theorem step_cwd (P : Prog α) (fs : Fs) : (P.step fs).2.cwd = fs.cwd := by
  cases P with
  | mkdir p k =>
    show (fs.mkdirCall p).2.cwd = _
    unfold Fs.mkdirCall Fs.mkdir
    split
    · rename_i g hg
      split at hg
      · cases hg
      · injection hg with hg; subst hg; rfl
    · rfl
  | openW p k =>
    show (fs.openCall p).2.cwd = _
    unfold Fs.openCall Fs.write
    split
    · rename_i g hg
      split at hg
      · cases hg
      · injection hg with hg; subst hg; rfl
    · rfl
  | _ => rfl

theorem Sim.step {s0 s : Sys ι α} {f : ι → Fs} (hsep : s0.Separate) (h : Sim s0 s f) (i : ι) :
    Sim s0 (s.step i) (Function.update f i ((s.prog i).step (f i)).2) := by
  have hag := (s.prog i).step_agree (h.agree i) (h.touches i)
  have hprog : ∀ j, j ≠ i → (s.step i).prog j = s.prog j := fun j hj => Function.update_of_ne hj _ _
  have hprogi : (s.step i).prog i = ((s.prog i).step (f i)).1 := by
    rw [← hag.1]; exact Function.update_self _ _ _
  have hviewi : (s.step i).view i = ((s.prog i).step (s.view i)).2 := view_step_self s i (step_cwd _ _)
  have hdf : ∀ j, ((s.step i).view j).dirs = ((s.prog i).step (s.view i)).2.dirs ∧
      ((s.step i).view j).files = ((s.prog i).step (s.view i)).2.files ∧ ((s.step i).view j).cwd = (s.view j).cwd :=
    fun j => ⟨rfl, rfl, rfl⟩
  have hout : ∀ S : List Str → Prop, (∀ n, (s0.prog i).writes (s0.view i) n → ¬ S n) →
      ∀ j, Agree S ((s.step i).view j) (s.view j) := by
    intro S hS j
    have := (s.prog i).writes_call (h.agree i) (h.touches i) (S := S) (fun n hn => hS n (h.writes i n hn))
    exact ⟨rfl, this.dirs, this.files⟩
  refine ⟨h.cwd, ?_, ?_, ?_, ?_, ?_⟩
  · intro j
    by_cases hj : j = i
    · subst hj
      rw [hprogi, Function.update_self, Prog.solo_step, h.solo]
    · rw [hprog j hj, Function.update_of_ne hj, h.solo]
  · intro j n hn
    by_cases hj : j = i
    · subst hj
      rw [hprogi, Function.update_self] at hn
      exact h.touches j n (Prog.touches_step _ _ hn)
    · rw [hprog j hj, Function.update_of_ne hj] at hn
      exact h.touches j n hn
  · intro j n hn
    by_cases hj : j = i
    · subst hj
      rw [hprogi, Function.update_self] at hn
      exact h.writes j n (Prog.writes_step _ _ hn)
    · rw [hprog j hj, Function.update_of_ne hj] at hn
      exact h.writes j n hn
  · intro j
    by_cases hj : j = i
    · subst hj
      rw [hviewi, Function.update_self]
      exact hag.2
    · rw [Function.update_of_ne hj]
      exact (hout _ (fun n hn => hsep i j (Ne.symm hj) n hn) j).trans (h.agree j)
  · intro n hn j
    have h1 := (hout (fun m => m = n) (fun m hm e => hn i (e ▸ hm)) j).sameAt rfl
    have h2 := h.other n hn j
    exact ⟨h1.1.trans h2.1, h1.2.trans h2.2⟩

theorem Sim.run {s0 : Sys ι α} (hsep : s0.Separate) : ∀ (sched : List ι) {s : Sys ι α} {f : ι → Fs}, Sim s0 s f →
    ∃ f', Sim s0 (s.run sched) f' ∧
      ∀ i, ((s.run sched).prog i).steps (f' i) = (s.prog i).steps (f i) - sched.count i
  | [], s, f, h => ⟨f, h, fun i => rfl⟩
  | j :: sched, s, f, h => by
    obtain ⟨f', h1, h2⟩ := Sim.run hsep sched (h.step hsep j)
    refine ⟨f', h1, fun i => ?_⟩
    refine (h2 i).trans ?_
    by_cases hij : i = j
    · subst hij
      have hag := (s.prog i).step_agree (h.agree i) (h.touches i)
      have : (s.step i).prog i = ((s.prog i).step (f i)).1 := by rw [← hag.1]; exact Function.update_self _ _ _
      rw [this, Function.update_self, Prog.steps_step, List.count_cons_self]
      omega
    · have : (s.step j).prog i = s.prog i := Function.update_of_ne hij _ _
      rw [this, Function.update_of_ne hij, List.count_cons_of_ne (Ne.symm hij)]

end Sys
end
end Dissect
