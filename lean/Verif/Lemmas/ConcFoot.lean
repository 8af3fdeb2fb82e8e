import Verif.Lemmas.ConcSolo
import Verif.Lemmas.RerunUni

/-! # The nodes a script looks at and changes -/

namespace Dissect
noncomputable section
open Prog

variable {α β : Type}

/-- The process, run alone, looks only at nodes in `R` and changes only nodes in `W`. -/
structure Foot (R W : List Str → Prop) (P : Prog α) (fs : Fs) : Prop where
  t : ∀ n, P.touches fs n → R n
  w : ∀ n, P.writes fs n → W n

theorem touches_bind (P : Prog α) (Q : α → Prog β) : ∀ (fs : Fs) (n : List Str), (P.bind Q).touches fs n →
    P.touches fs n ∨ ∃ a g, P.solo fs = (.ok a, g) ∧ (Q a).touches g n := by
  induction P with
  | ret a => exact fun fs n h => Or.inr ⟨a, fs, rfl, h⟩
  | raise e => exact fun fs n h => Or.inl h
  | stat p k ih =>
    rintro fs n (h | h)
    · exact Or.inl (Or.inl h)
    · exact (ih _ fs n h).imp Or.inr id
  | list p k ih =>
    rintro fs n (h | h | h)
    · exact Or.inl (Or.inl h)
    · exact Or.inl (Or.inr (Or.inl h))
    · exact (ih _ fs n h).imp (fun h => Or.inr (Or.inr h)) id
  | mkdir p k ih =>
    rintro fs n (h | h | h)
    · exact Or.inl (Or.inl h)
    · exact Or.inl (Or.inr (Or.inl h))
    · exact (ih _ _ n h).imp (fun h => Or.inr (Or.inr h)) id
  | read p k ih =>
    rintro fs n (h | h)
    · exact Or.inl (Or.inl h)
    · exact (ih _ fs n h).imp Or.inr id
  | openW p k ih =>
    rintro fs n (h | h | h)
    · exact Or.inl (Or.inl h)
    · exact Or.inl (Or.inr (Or.inl h))
    · exact (ih _ _ n h).imp (fun h => Or.inr (Or.inr h)) id
  | put m off c k ih =>
    rintro fs n (h | h)
    · exact Or.inl (Or.inl h)
    · exact (ih _ n h).imp Or.inr id

theorem writes_bind (P : Prog α) (Q : α → Prog β) : ∀ (fs : Fs) (n : List Str), (P.bind Q).writes fs n →
    P.writes fs n ∨ ∃ a g, P.solo fs = (.ok a, g) ∧ (Q a).writes g n := by
  induction P with
  | ret a => exact fun fs n h => Or.inr ⟨a, fs, rfl, h⟩
  | raise e => exact fun fs n h => Or.inl h
  | stat p k ih => exact fun fs n h => ih _ fs n h
  | list p k ih => exact fun fs n h => ih _ fs n h
  | mkdir p k ih =>
    rintro fs n (h | h)
    · exact Or.inl (Or.inl h)
    · exact (ih _ _ n h).imp Or.inr id
  | read p k ih => exact fun fs n h => ih _ fs n h
  | openW p k ih =>
    rintro fs n (h | h)
    · exact Or.inl (Or.inl h)
    · exact (ih _ _ n h).imp Or.inr id
  | put m off c k ih =>
    rintro fs n (h | h)
    · exact Or.inl (Or.inl h)
    · exact (ih _ n h).imp Or.inr id

variable {R W : List Str → Prop}

theorem Foot.bind {P : Prog α} {Q : α → Prog β} {fs : Fs} (h : Foot R W P fs)
    (h2 : ∀ a g, P.solo fs = (.ok a, g) → Foot R W (Q a) g) : Foot R W (P.bind Q) fs := by
  constructor
  · intro n hn
    rcases touches_bind P Q fs n hn with hn | ⟨a, g, e, hn⟩
    · exact h.t n hn
    · exact (h2 a g e).t n hn
  · intro n hn
    rcases writes_bind P Q fs n hn with hn | ⟨a, g, e, hn⟩
    · exact h.w n hn
    · exact (h2 a g e).w n hn

theorem Foot.ret (a : α) (fs : Fs) : Foot R W (.ret a) fs := ⟨fun _ h => h.elim, fun _ h => h.elim⟩
theorem Foot.raise (e : MainErr) (fs : Fs) : Foot R W (.raise e : Prog α) fs := ⟨fun _ h => h.elim, fun _ h => h.elim⟩

theorem Foot.ofMain (x : Main α) (fs : Fs) : Foot R W (Prog.ofMain x) fs := by
  cases x <;> exact ⟨fun _ h => h.elim, fun _ h => h.elim⟩

theorem Foot.ofPy (x : Py α) (fs : Fs) : Foot R W (Prog.ofPy x) fs := Foot.ofMain _ _

/-- Continue after a computation. -/
theorem Foot.compute {x : Py α} {Q : α → Prog β} {fs : Fs} (h : ∀ a, x = .ok a → Foot R W (Q a) fs) :
    Foot R W ((Prog.ofPy x).bind Q) fs := by
  refine (Foot.ofPy x fs).bind (fun a g e => ?_)
  rw [solo_ofPy] at e
  injection e with e1 e2
  subst e2
  exact h a (lift_ok.1 e1)

theorem Foot.computeM {x : Main α} {Q : α → Prog β} {fs : Fs} (h : ∀ a, x = .ok a → Foot R W (Q a) fs) :
    Foot R W ((Prog.ofMain x).bind Q) fs := by
  refine (Foot.ofMain x fs).bind (fun a g e => ?_)
  rw [solo_ofMain] at e
  injection e with e1 e2
  subst e2
  exact h a e1

/-! ### The working directory stays, directories are not removed -/

theorem step_dirs (P : Prog α) (fs : Fs) {d : List Str} (h : d ∈ fs.dirs) : d ∈ (P.step fs).2.dirs := by
  cases P with
  | mkdir p k =>
    show d ∈ (fs.mkdirCall p).2.dirs
    unfold Fs.mkdirCall Fs.mkdir
    split
    · rename_i g hg
      split at hg
      · cases hg
      · injection hg with hg; subst hg; exact List.mem_cons_of_mem _ h
    · exact h
  | openW p k =>
    show d ∈ (fs.openCall p).2.dirs
    unfold Fs.openCall Fs.write
    split
    · rename_i g hg
      split at hg
      · cases hg
      · injection hg with hg; subst hg; exact h
    · exact h
  | _ => exact h

theorem solo_keeps (P : Prog α) : ∀ fs : Fs, (P.solo fs).2.cwd = fs.cwd ∧ ∀ d ∈ fs.dirs, d ∈ (P.solo fs).2.dirs := by
  induction P with
  | ret a => exact fun _ => ⟨rfl, fun _ h => h⟩
  | raise e => exact fun _ => ⟨rfl, fun _ h => h⟩
  | stat p k ih => exact fun fs => ih _ fs
  | list p k ih => exact fun fs => ih _ fs
  | mkdir p k ih =>
    intro fs
    obtain ⟨h1, h2⟩ := ih (fs.mkdirCall p).1 (fs.mkdirCall p).2
    exact ⟨h1.trans (Sys.step_cwd (Prog.mkdir p k) fs), fun d hd => h2 d (step_dirs (Prog.mkdir p k) fs hd)⟩
  | read p k ih => exact fun fs => ih _ fs
  | openW p k ih =>
    intro fs
    obtain ⟨h1, h2⟩ := ih (fs.openCall p).1 (fs.openCall p).2
    exact ⟨h1.trans (Sys.step_cwd (Prog.openW p k) fs), fun d hd => h2 d (step_dirs (Prog.openW p k) fs hd)⟩
  | put m off c k ih => exact fun fs => ih _

/-- A state in which the output directory exists. -/
def At (c D : List Str) (fs : Fs) : Prop := fs.cwd = c ∧ D ∈ fs.dirs

theorem At.solo {c D : List Str} {fs g : Fs} {P : Prog α} {x : Main α} (h : At c D fs) (e : P.solo fs = (x, g)) :
    At c D g := by
  have := solo_keeps P fs
  rw [e] at this
  exact ⟨this.1.trans h.1, this.2 D h.2⟩

/-- In every such state the footprint is within `R` and `W`. -/
def Foots (c D : List Str) (R W : List Str → Prop) (P : Prog α) : Prop := ∀ fs, At c D fs → Foot R W P fs

namespace Foots
variable {c D : List Str}

theorem bind {P : Prog α} {Q : α → Prog β} (h : Foots c D R W P) (h2 : ∀ a, Foots c D R W (Q a)) :
    Foots c D R W (P.bind Q) :=
  fun fs ha => (h fs ha).bind (fun a _ e => h2 a _ (ha.solo e))

theorem ret (a : α) : Foots c D R W (.ret a) := fun fs _ => Foot.ret a fs
theorem raise (e : MainErr) : Foots c D R W (.raise e : Prog α) := fun fs _ => Foot.raise e fs
theorem ofPy (x : Py α) : Foots c D R W (Prog.ofPy x) := fun fs _ => Foot.ofPy x fs
theorem ofMain (x : Main α) : Foots c D R W (Prog.ofMain x) := fun fs _ => Foot.ofMain x fs

theorem compute {x : Py α} {Q : α → Prog β} (h : ∀ a, x = .ok a → Foots c D R W (Q a)) :
    Foots c D R W ((Prog.ofPy x).bind Q) := fun fs ha => Foot.compute (fun a e => h a e fs ha)

theorem computeM {x : Main α} {Q : α → Prog β} (h : ∀ a, x = .ok a → Foots c D R W (Q a)) :
    Foots c D R W ((Prog.ofMain x).bind Q) := fun fs ha => Foot.computeM (fun a e => h a e fs ha)

theorem read {p : Str} {k : Py Str → Prog α} (hp : R (nodeOf c p)) (h : ∀ r, Foots c D R W (k r)) :
    Foots c D R W (.read p k) := by
  intro fs ha
  refine ⟨?_, fun n hn => (h _ fs ha).w n hn⟩
  rintro n (hn | hn)
  · rw [hn]
    show R (nodeOf fs.cwd p)
    rw [ha.1]; exact hp
  · exact (h _ fs ha).t n hn

theorem stat {p : Str} {k : Bool → Prog α} (hp : R (nodeOf c p)) (h : ∀ r, Foots c D R W (k r)) :
    Foots c D R W (.stat p k) := by
  intro fs ha
  refine ⟨?_, fun n hn => (h _ fs ha).w n hn⟩
  rintro n (hn | hn)
  · rw [hn]
    show R (nodeOf fs.cwd p)
    rw [ha.1]; exact hp
  · exact (h _ fs ha).t n hn

theorem list {p : Str} {k : Py (List Str) → Prog α} (hp : ∀ n, nodeOf c p <+: n → R n) (h : ∀ r, Foots c D R W (k r)) :
    Foots c D R W (.list p k) := by
  intro fs ha
  have hr : fs.resolve p = nodeOf c p := by show nodeOf fs.cwd p = _; rw [ha.1]
  refine ⟨?_, fun n hn => (h _ fs ha).w n hn⟩
  rintro n (hn | hn | hn)
  · exact hp n (by rw [hn, hr])
  · exact hp n (by rw [← hr, ← hn.2]; exact List.dropLast_prefix n)
  · exact (h _ fs ha).t n hn

end Foots

/-! ### Writing below the output directory -/

/-- The path lies strictly below `D`, and everything between is allowed. -/
structure Allows (c D : List Str) (R W : List Str → Prop) (p : Str) : Prop where
  below : D <+: nodeOf c p
  strict : nodeOf c p ≠ D
  slash : '/' ∈ p
  r : ∀ n, D <+: n → n <+: nodeOf c p → R n
  w : ∀ n, D <+: n → n ≠ D → n <+: nodeOf c p → W n

theorem dropLast_below {D n : List Str} (h : D <+: n) (hs : n ≠ D) : D <+: n.dropLast := by
  obtain ⟨t, rfl⟩ := h
  have ht : t ≠ [] := by rintro rfl; exact hs (by simp)
  rw [List.dropLast_append_of_ne_nil ht]
  exact List.prefix_append _ _

variable {c D : List Str}

theorem mkdir_foot {fs : Fs} {name : Str} (hc : fs.cwd = c) (h1 : D <+: nodeOf c name)
    (hs : nodeOf c name ≠ D) {N : List Str} (h2 : nodeOf c name <+: N) (hr : ∀ n, D <+: n → n <+: N → R n)
    (hw : ∀ n, D <+: n → n ≠ D → n <+: N → W n) : Foot R W (Prog.mkdir name (.ret : Option MkErr → _)) fs := by
  have hres : fs.resolve name = nodeOf c name := by show nodeOf fs.cwd name = _; rw [hc]
  constructor
  · rintro n (hn | hn | hn)
    · rw [hn, hres]; exact hr _ h1 h2
    · rw [hn, hres]; exact hr _ (dropLast_below h1 hs) ((List.dropLast_prefix _).trans h2)
    · exact hn.elim
  · rintro n (hn | hn)
    · rw [hn.1, hres]; exact hw _ h1 hs h2
    · exact hn.elim

theorem makedirsP_foot {N : List Str} (hr : ∀ n, D <+: n → n <+: N → R n)
    (hw : ∀ n, D <+: n → n ≠ D → n <+: N → W n) : ∀ (k : ℕ) (fs : Fs) (name : Str), name.length ≤ k → At c D fs →
    name ≠ [] → fs.exists_ name = false → D <+: nodeOf c name → nodeOf c name <+: N →
    Foot R W (makedirsP name) fs := by
  have hne_of : ∀ (fs : Fs) (name : Str), At c D fs → name ≠ [] → fs.exists_ name = false → nodeOf c name ≠ D := by
    intro fs name ha hne hx hD
    have := (Fs.not_exists hne hx).1
    apply this
    show nodeOf fs.cwd name ∈ fs.dirs
    rw [ha.1, hD]
    exact ha.2
  intro k
  induction k with
  | zero =>
    intro fs name hl ha hne
    exact absurd (List.length_eq_zero_iff.1 (by omega)) hne
  | succ k ih =>
    intro fs name hl ha hne hx h1 h2
    have hs := hne_of fs name ha hne hx
    have hmk : ∀ g : Fs, At c D g → Foot R W (Prog.mkdir name (.ret : Option MkErr → _)) g :=
      fun g hg => mkdir_foot hg.1 h1 hs h2 hr hw
    unfold makedirsP
    by_cases hc : (Fs.makedirsSplit name).1 ≠ [] ∧ (Fs.makedirsSplit name).2 ≠ []
    · rw [dif_pos hc]
      have hlt := Fs.makedirsSplit_lt name hc.2
      obtain ⟨s1, s2, s3, s4, s5⟩ := makedirsSplit_spec name hne
      have hres : nodeOf c name = nodeOf c (Fs.makedirsSplit name).1 ++ pathComps (Fs.makedirsSplit name).2 :=
        Fs.resolve_split ⟨c, [], Dict.empty⟩ s2 s3 s4
      have hpre : nodeOf c (Fs.makedirsSplit name).1 <+: nodeOf c name := by rw [hres]; exact List.prefix_append _ _
      have hD : D <+: nodeOf c (Fs.makedirsSplit name).1 := by
        rw [pathComps_noslash s1] at hres
        split at hres
        · rw [List.append_nil] at hres
          rw [← hres]; exact h1
        · have := dropLast_below h1 hs
          rw [hres, List.dropLast_concat] at this
          exact this
      have hcont : Foot R W ((if fs.exists_ (Fs.makedirsSplit name).1 = true then Prog.mkdir name .ret
          else (makedirsP (Fs.makedirsSplit name).1).bind (fun r =>
            if r = some .other then .ret r
            else if (Fs.makedirsSplit name).2 = ['.'] then .ret none
            else .mkdir name .ret) : Prog (Option MkErr))) fs := by
        cases hh : fs.exists_ (Fs.makedirsSplit name).1 with
        | true =>
          rw [if_pos rfl]
          exact hmk fs ha
        | false =>
          rw [if_neg (by simp)]
          refine (ih fs _ (by omega) ha hc.1 hh hD (hpre.trans h2)).bind (fun r g e => ?_)
          split
          · exact Foot.ret _ _
          · split
            · exact Foot.ret _ _
            · exact hmk g (ha.solo e)
      constructor
      · rintro n (hn | hn)
        · rw [hn]
          show R (nodeOf fs.cwd _)
          rw [ha.1]
          exact hr _ hD (hpre.trans h2)
        · exact hcont.t n hn
      · exact hcont.w
    · rw [dif_neg hc]
      exact hmk fs ha

theorem createParentP_foots {p : Str} (h : Allows c D R W p) : Foots c D R W (createParentP p) := by
  intro fs ha
  obtain ⟨a1, a2, a3, a4, a5, a6⟩ := pathSplit_spec p
  have hne : dirname p ≠ [] := fun e => (a4 e).1 h.slash
  have hres : nodeOf c p = nodeOf c (dirname p) ++ pathComps (pathSplit p).2 :=
    Fs.resolve_split ⟨c, [], Dict.empty⟩ a2 a3 (fun e => absurd e hne)
  have hpre : nodeOf c (dirname p) <+: nodeOf c p := by rw [hres]; exact List.prefix_append _ _
  have hD : D <+: nodeOf c (dirname p) := by
    rw [pathComps_noslash a1] at hres
    split at hres
    · rw [List.append_nil] at hres
      rw [← hres]; exact h.below
    · have := dropLast_below h.below h.strict
      rw [hres, List.dropLast_concat] at this
      exact this
  have hcont : Foot R W (if fs.exists_ (dirname p) = true then (.ret () : Prog Unit)
      else (makedirsP (dirname p)).bind raiseOs) fs := by
    cases hh : fs.exists_ (dirname p) with
    | true => rw [if_pos rfl]; exact Foot.ret _ _
    | false =>
      rw [if_neg (by simp)]
      refine (makedirsP_foot h.r h.w _ fs _ le_rfl ha hne hh hD hpre).bind (fun r g e => ?_)
      cases r
      · exact Foot.ret _ _
      · exact Foot.raise _ _
  constructor
  · rintro n (hn | hn)
    · rw [hn]
      show R (nodeOf fs.cwd _)
      rw [ha.1]
      exact h.r _ hD hpre
    · exact hcont.t n hn
  · exact hcont.w

theorem putAll_foot {node : List Str} (hr : R node) (hw : W node) : ∀ (cs : Str) (off : ℕ) (fs : Fs),
    Foot R W (putAll node off cs) fs
  | [], _, fs => Foot.ret _ _
  | c :: cs, off, fs => by
    have ih := putAll_foot hr hw cs (off + 1) (fs.putCall node off c)
    constructor
    · rintro n (hn | hn)
      · rw [hn]; exact hr
      · exact ih.t n hn
    · rintro n (hn | hn)
      · rw [hn]; exact hw
      · exact ih.w n hn

theorem Foots.openW {p : Str} {k : Py (List Str) → Prog α} (h : Allows c D R W p)
    (hk : ∀ e, Foots c D R W (k (.error e))) (hk2 : Foots c D R W (k (.ok (nodeOf c p)))) : Foots c D R W (.openW p k) := by
  intro fs ha
  have hres : fs.resolve p = nodeOf c p := by show nodeOf fs.cwd p = _; rw [ha.1]
  have hat : At c D (fs.openCall p).2 :=
    ⟨(Sys.step_cwd (Prog.openW p (.ret : Py (List Str) → _)) fs).trans ha.1,
      step_dirs (Prog.openW p (.ret : Py (List Str) → _)) fs ha.2⟩
  have hcont : Foot R W (k (fs.openCall p).1) (fs.openCall p).2 := by
    have hv : (fs.openCall p).1 = .ok (nodeOf c p) ∨ ∃ e, (fs.openCall p).1 = .error e := by
      unfold Fs.openCall
      split
      · exact Or.inl (by rw [hres])
      · exact Or.inr ⟨_, rfl⟩
    rcases hv with hv | ⟨e, hv⟩
    · rw [hv]; exact hk2 _ hat
    · rw [hv]; exact hk e _ hat
  constructor
  · rintro n (hn | hn | hn)
    · rw [hn, hres]; exact h.r _ h.below (List.prefix_refl _)
    · rw [hn, hres]; exact h.r _ (dropLast_below h.below h.strict) (List.dropLast_prefix _)
    · exact hcont.t n hn
  · rintro n (hn | hn)
    · rw [hn.1, hres]; exact h.w _ h.below h.strict (List.prefix_refl _)
    · exact hcont.w n hn

theorem putAll_foots {p : Str} (h : Allows c D R W p) (off : ℕ) (txt : Str) : Foots c D R W (putAll (nodeOf c p) off txt) :=
  fun fs _ => putAll_foot (h.r _ h.below (List.prefix_refl _)) (h.w _ h.below h.strict (List.prefix_refl _)) txt off fs

theorem writeP_foots {p : Str} (h : Allows c D R W p) (txt : Py Str) : Foots c D R W (writeP p txt) := by
  unfold writeP
  refine Foots.openW h (fun e => Foots.compute (fun a ha => by cases ha)) (Foots.compute (fun a ha => ?_))
  injection ha with ha
  subst ha
  exact Foots.compute (fun t _ => putAll_foots h 0 t)

theorem saveP_foots {p : Str} (h : Allows c D R W p) (txt : Str) : Foots c D R W (saveP txt p) :=
  (createParentP_foots h).bind (fun _ => writeP_foots h _)

/-! ### Reading and exporting spaces -/

theorem readP_foots {p : Str} (h : R (nodeOf c p)) : Foots c D R W (readP p) := Foots.read h (fun _ => Foots.ofPy _)

theorem loadSpaceP_foots (L : Lib) {p : Str} (h : R (nodeOf c p)) : Foots c D R W (loadSpaceP L p) :=
  Foots.read h (fun _ => Foots.ofPy _)

theorem buildWithP_foots (io : NumIO) {data fmt : Str} {rows cols : Option Str} (hd : R (nodeOf c data))
    (hr : ∀ f, rows = some f → R (nodeOf c f)) (hc : ∀ f, cols = some f → R (nodeOf c f)) :
    Foots c D R W (buildWithP io data fmt rows cols) := by
  unfold buildWithP
  refine Foots.bind ?_ (fun r => Foots.bind ?_ (fun cc => Foots.bind ?_ (fun ir => Foots.bind ?_ (fun m => ?_))))
  · unfold buildRowsP
    cases rows with
    | none => exact Foots.ret _
    | some f => exact (readP_foots (hr f rfl)).bind (fun _ => Foots.compute (fun _ _ => Foots.ret _))
  · unfold buildColsP
    cases cols with
    | none =>
      simp only
      split
      · exact Foots.raise _
      · exact Foots.ret _
    | some f => exact (readP_foots (hc f rfl)).bind (fun _ => Foots.compute (fun _ _ => Foots.ret _))
  · unfold rowsOrDataP
    cases r with
    | some x => exact Foots.ret _
    | none => exact (readP_foots hd).bind (fun _ => Foots.ofPy _)
  · exact (readP_foots hd).bind (fun _ => Foots.ofPy _)
  · exact Foots.compute (fun _ _ => Foots.ofPy _)

theorem readInputP_foots (L : Lib) {pre fmt : Str} (gz : Bool) (h : ∀ f ∈ Tool.spaceFiles pre fmt, R (nodeOf c f)) :
    Foots c D R W (readInputP L pre fmt gz) := by
  unfold readInputP
  split
  · exact Foots.raise _
  · split
    · exact loadSpaceP_foots L (h _ (by simp [Tool.spaceFiles]))
    · have hr : R (nodeOf c (pre ++ cs!".rows")) := h _ (by simp [Tool.spaceFiles])
      have hc : R (nodeOf c (pre ++ cs!".cols")) := h _ (by simp [Tool.spaceFiles])
      intro fs ha
      refine (Foots.stat (k := fun b => .ret (if b then some (pre ++ cs!".rows") else none)) hr (fun _ => Foots.ret _) fs ha).bind
        (fun rows g e => ?_)
      have hag := ha.solo e
      refine (Foots.stat (k := fun b => .ret (if b then some (pre ++ cs!".cols") else none)) hc (fun _ => Foots.ret _) g hag).bind
        (fun cols g' e' => ?_)
      have hag' := hag.solo e'
      split
      · exact Foot.raise _ _
      · refine buildWithP_foots L.io ?_ ?_ ?_ g' hag'
        · split
          · exact h _ (by simp [Tool.spaceFiles])
          · exact h _ (by simp [Tool.spaceFiles])
        · intro f hf
          have : (Except.ok (if fs.exists_ (pre ++ cs!".rows") then some (pre ++ cs!".rows") else none), fs) = (.ok rows, g) := e
          injection this with h1 h2
          injection h1 with h1
          rw [hf] at h1
          split at h1
          · injection h1 with h1; rw [← h1]; exact hr
          · cases h1
        · intro f hf
          have : (Except.ok (if g.exists_ (pre ++ cs!".cols") then some (pre ++ cs!".cols") else none), g) = (.ok cols, g') := e'
          injection this with h1 h2
          injection h1 with h1
          rw [hf] at h1
          split at h1
          · injection h1 with h1; rw [← h1]; exact hc
          · cases h1

theorem exportP_foots (io : NumIO) (s : Space Str) (store : Csr ℝ) {pre : Str} (format : Option Str)
    (hp : Foots c D R W (createParentP pre))
    (h : ∀ e ∈ [cs!"dm", cs!"sm", cs!"rows", cs!"cols"], format ≠ some fmtDm → Allows c D R W (withExt pre e))
    (h' : ∀ e ∈ [cs!"dm", cs!"rows", cs!"cols"], Allows c D R W (withExt pre e)) :
    Foots c D R W (exportP io s store pre format) := by
  unfold exportP
  refine hp.bind (fun _ => Foots.bind ?_ (fun _ => ?_))
  · unfold exportMatrixP
    cases format with
    | none => exact Foots.ret _
    | some f =>
      simp only
      split
      · exact writeP_foots (h' _ (by simp [fmtDm])) _
      · rename_i hf
        split
        · split
          · exact Foots.raise _
          · exact writeP_foots (h _ (by simp [fmtSm]) (fun e => hf (by injection e))) _
        · exact Foots.raise _
  · unfold exportRowColumnP exportColsP
    refine Foots.bind ?_ (fun _ => writeP_foots (h' _ (by simp)) _)
    split
    · exact writeP_foots (h' _ (by simp)) _
    · exact Foots.ret _

theorem printP_foots (L : Lib) (s : Space Str) {file : Str} (fmt : Option Str)
    (h : ∀ e ∈ Tool.spaceExts, Allows c D R W (file ++ e)) : Foots c D R W (printP L s file fmt) := by
  unfold printP
  have hpkl := h cs!".pkl" (by simp [Tool.spaceExts])
  refine (saveP_foots hpkl _).bind (fun _ => ?_)
  unfold exportOptP
  cases fmt with
  | none => exact Foots.ret _
  | some f =>
    have hcp : Foots c D R W (createParentP file) := by
      have := createParentP_foots hpkl
      unfold createParentP at this ⊢
      rwa [dirname_append file (by decide)] at this
    refine exportP_foots _ _ _ _ hcp ?_ ?_
    · intro e he _
      have : withExt file e = file ++ ('.' :: e) := by simp [withExt]
      rw [this]
      apply h
      simp only [List.mem_cons, List.not_mem_nil, or_false] at he
      rcases he with rfl | rfl | rfl | rfl <;> simp [Tool.spaceExts]
    · intro e he
      have : withExt file e = file ++ ('.' :: e) := by simp [withExt]
      rw [this]
      apply h
      simp only [List.mem_cons, List.not_mem_nil, or_false] at he
      rcases he with rfl | rfl | rfl <;> simp [Tool.spaceExts]

theorem forP_foots {f : ℕ → α → Prog Unit} : ∀ (i : ℕ) (l : List α), (∀ j, ∀ x ∈ l, Foots c D R W (f j x)) →
    Foots c D R W (forP f i l)
  | _, [], _ => Foots.ret _
  | i, x :: xs, h => (h i x (by simp)).bind (fun _ => forP_foots (i + 1) xs (fun j y hy => h j y (by simp [hy])))

theorem loadSecondP_foots (L : Lib) {files : List Str} (h : ∀ f ∈ files, R (nodeOf c f)) :
    Foots c D R W (loadSecondP L files) := by
  match files with
  | [] => exact Foots.ret _
  | [_] => exact Foots.ret _
  | [_, f] => exact (loadSpaceP_foots L (h f (by simp))).bind (fun _ => Foots.ret _)
  | _ :: _ :: _ :: _ => exact Foots.ret _

/-! ### The scripts -/

theorem pathComps_ne_nil {a : Char} {t : Str} (h1 : a ≠ '/') (h2 : a ≠ '.') : pathComps (a :: t) ≠ [] := by
  have key : ∀ (t cur : Str), cur ≠ [] → cur ≠ ['.'] → (∀ x, cur ++ x ≠ ['.']) →
      (splitSlashAux cur t).filter (fun c => decide (c ≠ [] ∧ c ≠ ['.'])) ≠ [] := by
    intro t
    induction t with
    | nil => intro cur h1 h2 _; simp [splitSlashAux, h1, h2]
    | cons c cs ih =>
      intro cur h1 h2 h3
      unfold splitSlashAux
      split
      · simp [h1, h2]
      · exact ih _ (by simp) (h3 [c]) (fun x => by rw [List.append_assoc]; exact h3 _)
  unfold pathComps splitSlashAux
  rw [if_neg h1]
  refine key t _ (by simp) (by simpa using h2) (fun x hx => ?_)
  injection hx with hx
  exact h2 hx

theorem nodeOf_slash (c : List Str) (o r : Str) : nodeOf c (o ++ ['/'] ++ r) = nodeOf c (o ++ ['/']) ++ pathComps r := by
  have habs : isAbs (o ++ ['/'] ++ r) = isAbs (o ++ ['/']) := by
    unfold isAbs; cases o <;> simp
  have hp : pathComps (o ++ ['/']) = pathComps o := by rw [pathComps_slash]; simp
  have hp2 : pathComps (o ++ ['/'] ++ r) = pathComps o ++ pathComps r := by
    rw [List.append_assoc, List.singleton_append, pathComps_slash]
  unfold nodeOf
  rw [habs, hp, hp2]
  split <;> simp

/-- A name below the output directory that starts with a letter. -/
theorem allows_out {sc : Tool} {c : List Str} {argv : List Str} {st : Settings} {a : Char} {t : Str} (h1 : a ≠ '/') (h2 : a ≠ '.')
    (hn : sc.OutName st (a :: t)) :
    Allows c (Tool.outNode c st) (sc.MayTouch c argv st) (sc.MayWrite c st) ((st cs!"out_dir").strD ++ ['/'] ++ a :: t) := by
  have hne := pathComps_ne_nil (t := t) h1 h2
  have hnode := nodeOf_slash c (st cs!"out_dir").strD (a :: t)
  refine ⟨?_, ?_, by simp, ?_, ?_⟩
  · rw [hnode]; exact List.prefix_append _ _
  · rw [hnode]
    intro h
    have := congrArg List.length h
    rw [List.length_append] at this
    unfold Tool.outNode at this
    exact hne (List.length_eq_zero_iff.1 (by omega))
  · intro n ha hb
    exact Or.inl ⟨_, ⟨_, hn, rfl⟩, ha, hb⟩
  · intro n ha hb hc
    exact Or.inl ⟨_, ⟨_, hn, rfl⟩, ha, hb, hc⟩

section
variable {L : Lib} {c : List Str} {argv : List Str} {st : Settings}

theorem strD_of_asStr {v : OptVal} {s : Str} (h : v.asStr = some s) : v.strD = s := by unfold OptVal.strD; rw [h]; rfl

theorem in_file_touch {sc : Tool} {f : Str} (h : f ∈ sc.inputFiles st) : sc.MayTouch c argv st (nodeOf c f) :=
  Or.inr (Or.inr (Or.inl ⟨f, h, rfl⟩))

theorem core_foots (gz : Bool) (fmt : Option Str) :
    Foots c (Tool.outNode c st) (Tool.core.MayTouch c argv st) (Tool.core.MayWrite c st)
      (buildSpacesP L (st cs!"in_file_prefix").strD (st cs!"in_format").strD (st cs!"out_dir").strD fmt
        (st cs!"weightings").asTokens (st cs!"selections").asTokens (st cs!"reductions").asTokens
        (st cs!"normalizations").asTokens gz) := by
  unfold buildSpacesP
  refine (readInputP_foots L gz (fun f hf => in_file_touch (sc := .core) hf)).bind (fun space => ?_)
  refine forP_foots _ _ (fun i w hw => Foots.compute (fun wS _ => ?_))
  refine forP_foots _ _ (fun i s hs => Foots.compute (fun sS _ => ?_))
  refine forP_foots _ _ (fun i r hr => Foots.compute (fun rS _ => ?_))
  refine forP_foots _ _ (fun i n hn => Foots.compute (fun nS _ => ?_))
  refine printP_foots L nS fmt (fun e he => ?_)
  have hk : keptOps [some (coreDescr (st cs!"in_file_prefix").strD), w, s, r, n] =
      (cs!"CORE_SS." ++ lastComp (st cs!"in_file_prefix").strD) :: keptOps [w, s, r, n] := by
    unfold keptOps coreDescr
    show List.filter _ ((cs!"CORE_SS." ++ lastComp (st cs!"in_file_prefix").strD) :: List.filterMap id [w, s, r, n]) = _
    rw [List.filter_cons_of_pos (by simp)]
  have hname : ∃ t, joinStr ['.'] (keptOps [some (coreDescr (st cs!"in_file_prefix").strD), w, s, r, n]) ++ e = 'C' :: t := by
    rw [hk]
    cases keptOps [w, s, r, n] with
    | nil => exact ⟨_, rfl⟩
    | cons x xs => exact ⟨_, rfl⟩
  obtain ⟨t, ht⟩ := hname
  unfold spaceFile
  rw [List.append_assoc, ht]
  refine allows_out (by decide) (by decide) ?_
  rw [← ht]
  exact ⟨w, hw, s, hs, r, hr, n, hn, e, he, rfl⟩

theorem transformRawP_foots {raw : Space Str} {fmt : Option Str} {core : Str}
    (hin : Tool.periph.MayTouch c argv st (nodeOf c core))
    (hcore : core = (st cs!"core_space_file").strD ∨
      ∃ d, (st cs!"core_in_dir").asStr = some d ∧ withSlash d <+: core) :
    Foots c (Tool.outNode c st) (Tool.periph.MayTouch c argv st) (Tool.periph.MayWrite c st)
      (transformRawP L raw (st cs!"in_file_prefix").strD (st cs!"out_dir").strD fmt core) := by
  unfold transformRawP
  refine (loadSpaceP_foots L hin).bind (fun co => Foots.compute (fun p _ => ?_))
  refine printP_foots L p fmt (fun e he => ?_)
  rw [show (st cs!"out_dir").strD ++ ['/'] ++ (cs!"PER_SS." ++ lastComp (st cs!"in_file_prefix").strD) ++ ['.'] ++ stem core ++ e =
    (st cs!"out_dir").strD ++ ['/'] ++ 'P' :: (cs!"ER_SS." ++ lastComp (st cs!"in_file_prefix").strD ++ ['.'] ++ stem core ++ e)
    from by simp]
  exact allows_out (by decide) (by decide) ⟨core, hcore, e, he, rfl⟩

theorem in_dir_touch {sc : Tool} {d : Str} (h : sc.inputDir st = some d) (name : Str) :
    sc.MayTouch c argv st (nodeOf c (withSlash d ++ name)) := by
  refine Or.inr (Or.inr (Or.inr (Or.inl ⟨d, h, Or.inr ?_⟩)))
  have hsl : ∃ o, withSlash d = o ++ ['/'] := by
    unfold withSlash
    split
    · rename_i hd
      obtain ⟨l, hl⟩ := List.getLast?_eq_some_iff.1 hd
      exact ⟨l, hl⟩
    · exact ⟨d, rfl⟩
  obtain ⟨o, ho⟩ := hsl
  rw [ho, nodeOf_slash]
  exact List.prefix_append _ _

theorem listdirP_foots {sc : Tool} {d : Str} (h : sc.inputDir st = some d) {D : List Str} {W : List Str → Prop}
    (order : List Str → List Str) :
    Foots c D (sc.MayTouch c argv st) W (listdirP order (withSlash d)) :=
  Foots.list (fun _ hn => Or.inr (Or.inr (Or.inr (Or.inl ⟨d, h, Or.inr hn⟩)))) (fun _ => Foots.ofPy _)

theorem in_dir_self {sc : Tool} {d : Str} (h : sc.inputDir st = some d) : sc.MayTouch c argv st (nodeOf c d) :=
  Or.inr (Or.inr (Or.inr (Or.inl ⟨d, h, Or.inl rfl⟩)))

theorem simMeasureP_foots {c0 c1 : ℤ} {s : Space Str} {s2 : Option (Space Str)} {m : Str} {files : List Str}
    (hf : files = (st cs!"spaces").asList.getD [] ∨
      ∃ d name, (st cs!"in_dir").asStr = some d ∧ files = [withSlash d ++ name])
    (hm : m ∈ (st cs!"sim_measures").asList.getD []) :
    Foots c (Tool.outNode c st) (Tool.sims.MayTouch c argv st) (Tool.sims.MayWrite c st)
      (simMeasureP L (st cs!"in_file").strD c0 c1 (st cs!"out_dir").strD
        (joinStr ['.'] [cs!"SIMS", lastComp (st cs!"in_file").strD, spacesDescr files]) s s2 m) := by
  unfold simMeasureP
  cases simOf m with
  | none => exact Foots.ret _
  | some sim =>
    have hin : Tool.sims.MayTouch c argv st (nodeOf c (st cs!"in_file").strD) :=
      in_file_touch (sc := .sims) (List.mem_cons_self)
    have hal : Allows c (Tool.outNode c st) (Tool.sims.MayTouch c argv st) (Tool.sims.MayWrite c st)
        ((st cs!"out_dir").strD ++ ['/'] ++ joinStr ['.'] [cs!"SIMS", lastComp (st cs!"in_file").strD, spacesDescr files] ++ ['.'] ++ m) := by
      rw [show (st cs!"out_dir").strD ++ ['/'] ++ joinStr ['.'] [cs!"SIMS", lastComp (st cs!"in_file").strD, spacesDescr files] ++ ['.'] ++ m =
        (st cs!"out_dir").strD ++ ['/'] ++ 'S' :: (cs!"IMS." ++ lastComp (st cs!"in_file").strD ++ ['.'] ++ spacesDescr files ++ ['.'] ++ m)
        from by simp [joinStr]]
      refine allows_out (by decide) (by decide) ⟨files, hf, m, hm, ?_⟩
      simp [joinStr]
    refine (createParentP_foots hal).bind (fun _ => (readP_foots hin).bind (fun _ => ?_))
    refine Foots.openW hal (fun e => Foots.compute (fun a ha => by cases ha)) (Foots.compute (fun a ha => ?_))
    injection ha with ha
    subst ha
    exact (readP_foots hin).bind (fun _ => Foots.compute (fun t _ => putAll_foots hal 0 t))

theorem computeSimP_foots {columns files measures : List Str} (hmeas : measures = (st cs!"sim_measures").asList.getD [])
    (hin : ∀ f ∈ files, Tool.sims.MayTouch c argv st (nodeOf c f))
    (hf : files = (st cs!"spaces").asList.getD [] ∨
      ∃ d name, (st cs!"in_dir").asStr = some d ∧ files = [withSlash d ++ name]) :
    Foots c (Tool.outNode c st) (Tool.sims.MayTouch c argv st) (Tool.sims.MayWrite c st)
      (computeSimP L (st cs!"in_file").strD columns (st cs!"out_dir").strD measures files) := by
  subst hmeas
  unfold computeSimP
  refine Foots.compute (fun cc _ => ?_)
  cases files with
  | nil => exact Foots.raise _
  | cons f rest =>
    refine Foots.read (hin f (by simp)) (fun r => ?_)
    split
    · exact Foots.ret _
    · exact Foots.raise _
    · exact (loadSecondP_foots L hin).bind (fun s2 => forP_foots _ _ (fun _ m hm => simMeasureP_foots hf hm))

theorem computeNeighboursP_foots (n : ℤ) :
    Foots c (Tool.outNode c st) (Tool.neigh.MayTouch c argv st) (Tool.neigh.MayWrite c st)
      (computeNeighboursP L (st cs!"in_file").strD n (st cs!"out_dir").strD (st cs!"sim_measure").strD
        ((st cs!"spaces").asList.getD [])) := by
  unfold computeNeighboursP
  have hfiles : ∀ f ∈ (st cs!"spaces").asList.getD [], Tool.neigh.MayTouch c argv st (nodeOf c f) :=
    fun f hf => in_file_touch (sc := .neigh) (List.mem_cons_of_mem _ hf)
  have hin : Tool.neigh.MayTouch c argv st (nodeOf c (st cs!"in_file").strD) :=
    in_file_touch (sc := .neigh) (List.mem_cons_self)
  have hal : Allows c (Tool.outNode c st) (Tool.neigh.MayTouch c argv st) (Tool.neigh.MayWrite c st)
      ((st cs!"out_dir").strD ++ ['/'] ++ joinStr ['.'] [cs!"NEIGHBOURS", lastComp (st cs!"in_file").strD,
        spacesDescr ((st cs!"spaces").asList.getD [])] ++ ['.'] ++ (st cs!"sim_measure").strD) := by
    rw [show (st cs!"out_dir").strD ++ ['/'] ++ joinStr ['.'] [cs!"NEIGHBOURS", lastComp (st cs!"in_file").strD,
        spacesDescr ((st cs!"spaces").asList.getD [])] ++ ['.'] ++ (st cs!"sim_measure").strD =
      (st cs!"out_dir").strD ++ ['/'] ++ 'N' :: (cs!"EIGHBOURS." ++ lastComp (st cs!"in_file").strD ++ ['.'] ++
        spacesDescr ((st cs!"spaces").asList.getD []) ++ ['.'] ++ (st cs!"sim_measure").strD)
      from by simp [joinStr]]
    refine allows_out (by decide) (by decide) ?_
    show _ = _
    simp [joinStr]
  cases simOf (st cs!"sim_measure").strD with
  | none => exact Foots.raise _
  | some sim =>
    revert hfiles hal
    cases (st cs!"spaces").asList.getD [] with
    | nil => exact fun _ _ => Foots.raise _
    | cons f rest =>
      intro hfiles hal
      refine (loadSpaceP_foots L (hfiles f (by simp))).bind (fun s => ?_)
      refine (loadSecondP_foots L hfiles).bind (fun s2 => ?_)
      refine (createParentP_foots hal).bind (fun _ => (readP_foots hin).bind (fun _ => Foots.compute (fun ws _ => ?_)))
      exact writeP_foots hal _

/-- In every state with this working directory the footprint is within `R` and `W`. -/
def FootsC (c : List Str) (R W : List Str → Prop) (P : Prog α) : Prop := ∀ fs : Fs, fs.cwd = c → Foot R W P fs

theorem FootsC.bind {α β : Type} {R W : List Str → Prop} {P : Prog α} {Q : α → Prog β} (h : FootsC c R W P)
    (h2 : ∀ a, FootsC c R W (Q a)) : FootsC c R W (P.bind Q) :=
  fun fs ha => (h fs ha).bind (fun a g e => h2 a _ (by
    have := solo_keeps P fs
    rw [e] at this
    exact this.1.trans ha))

theorem FootsC.read {α : Type} {R W : List Str → Prop} {p : Str} {k : Py Str → Prog α} (hp : R (nodeOf c p))
    (h : ∀ r, FootsC c R W (k r)) : FootsC c R W (.read p k) := by
  intro fs ha
  refine ⟨?_, fun n hn => (h _ fs ha).w n hn⟩
  rintro n (hn | hn)
  · rw [hn]
    show R (nodeOf fs.cwd p)
    rw [ha]; exact hp
  · exact (h _ fs ha).t n hn

theorem FootsC.stat {α : Type} {R W : List Str → Prop} {p : Str} {k : Bool → Prog α} (hp : R (nodeOf c p))
    (h : ∀ r, FootsC c R W (k r)) : FootsC c R W (.stat p k) := by
  intro fs ha
  refine ⟨?_, fun n hn => (h _ fs ha).w n hn⟩
  rintro n (hn | hn)
  · rw [hn]
    show R (nodeOf fs.cwd p)
    rw [ha]; exact hp
  · exact (h _ fs ha).t n hn

theorem FootsC.list {α : Type} {R W : List Str → Prop} {p : Str} {k : Py (List Str) → Prog α}
    (hp : ∀ n, nodeOf c p <+: n → R n) (h : ∀ r, FootsC c R W (k r)) : FootsC c R W (.list p k) := by
  intro fs ha
  have hr : fs.resolve p = nodeOf c p := by show nodeOf fs.cwd p = _; rw [ha]
  refine ⟨?_, fun n hn => (h _ fs ha).w n hn⟩
  rintro n (hn | hn | hn)
  · exact hp n (by rw [hn, hr])
  · exact hp n (by rw [← hr, ← hn.2]; exact List.dropLast_prefix n)
  · exact (h _ fs ha).t n hn

theorem FootsC.ofPy {α : Type} {R W : List Str → Prop} (x : Py α) : FootsC c R W (Prog.ofPy x) :=
  fun fs _ => Foot.ofPy x fs
theorem FootsC.ret {α : Type} {R W : List Str → Prop} (x : α) : FootsC c R W (.ret x) :=
  fun fs _ => Foot.ret x fs

theorem evaluateSimP_foots {R W : List Str → Prop} {f : Str} (h : R (nodeOf c f)) (columns measures : List Str) :
    FootsC c R W (evaluateSimP L f columns measures) :=
  (FootsC.ofPy _).bind (fun _ => (FootsC.read h (fun _ => FootsC.ofPy _)).bind
    (fun _ => (FootsC.ofPy _).bind (fun _ => FootsC.ofPy _)))

theorem evalLoopP_foots {R W : List Str → Prop} {dir : Str} (h : ∀ name, R (nodeOf c (dir ++ name)))
    (columns measures : List Str) : ∀ names : List Str, FootsC c R W (evalLoopP L dir columns measures names)
  | [] => FootsC.ret _
  | f :: names => (evaluateSimP_foots (h f) _ _).bind (fun _ =>
      (evalLoopP_foots h columns measures names).bind (fun _ => FootsC.ret _))

theorem exportModelP_foots {D : List Str} {R W : List Str → Prop} (m : PyObj) {file : Str}
    (h : ∀ e ∈ [[], cs!".dm", cs!".rows", cs!".cols"], Allows c D R W (file ++ e)) :
    Foots c D R W (exportModelP L m file) := by
  have h0 : Allows c D R W file := by simpa using h [] (by simp)
  have hw : ∀ t : Str, Foots c D R W ((createParentP file).bind fun _ => writeP file (.ok t)) :=
    fun t => (createParentP_foots h0).bind (fun _ => writeP_foots h0 _)
  have hr : Foots c D R W ((createParentP file).bind fun _ => (.raise (.raised .illegalStateError) : Prog Unit)) :=
    (createParentP_foots h0).bind (fun _ => Foots.raise _)
  cases m with
  | composer cc =>
    obtain ⟨k, cols⟩ := cc
    cases k with
    | multiplicative => exact Foots.raise _
    | weighted a b => exact hw _
    | dilation l => exact hw _
    | fullAdditive a b i l =>
      cases a with
      | none => exact hr
      | some a =>
        cases b with
        | none => exact hr
        | some b => exact hw _
  | lexfun m =>
    refine (createParentP_foots h0).bind (fun _ => ?_)
    cases m.functions with
    | none => exact Foots.raise _
    | some s =>
      refine exportP_foots _ _ _ _ (createParentP_foots h0) (fun e _ hne => absurd rfl hne) (fun e he => ?_)
      have : withExt file e = file ++ ('.' :: e) := by simp [withExt]
      rw [this]
      apply h
      simp only [List.mem_cons, List.not_mem_nil, or_false] at he
      rcases he with rfl | rfl | rfl <;> simp
  | _ => exact Foots.raise _

theorem trainModelP_foots (regression : Option Str) (cv ic : Bool) (param : ParamVal) (range : Option (List ℝ)) (ex : Bool) :
    Foots c (Tool.outNode c st) (Tool.train.MayTouch c argv st) (Tool.train.MayWrite c st)
      (trainModelP L (st cs!"in_file").strD (st cs!"out_dir").strD (st cs!"model").strD ((st cs!"arg_space").asList.getD [])
        (st cs!"phrase_space").strD regression cv ic param range ex) := by
  have hfiles : ∀ f ∈ (st cs!"arg_space").asList.getD [], Tool.train.MayTouch c argv st (nodeOf c f) :=
    fun f hf => in_file_touch (sc := .train) (List.mem_cons_of_mem _ (List.mem_cons_of_mem _ hf))
  have hin : Tool.train.MayTouch c argv st (nodeOf c (st cs!"in_file").strD) :=
    in_file_touch (sc := .train) (List.mem_cons_self)
  have hph : Tool.train.MayTouch c argv st (nodeOf c (st cs!"phrase_space").strD) :=
    in_file_touch (sc := .train) (List.mem_cons_of_mem _ List.mem_cons_self)
  have hal : ∀ e ∈ [cs!".pkl", cs!".params", cs!".params.dm", cs!".params.rows", cs!".params.cols"],
      Allows c (Tool.outNode c st) (Tool.train.MayTouch c argv st) (Tool.train.MayWrite c st)
        ((st cs!"out_dir").strD ++ cs!"/TRAINED_COMP_MODEL" ++ ['.'] ++ (st cs!"model").strD ++ ['.'] ++
          lastComp (st cs!"in_file").strD ++ e) := by
    intro e he
    rw [show (st cs!"out_dir").strD ++ cs!"/TRAINED_COMP_MODEL" ++ ['.'] ++ (st cs!"model").strD ++ ['.'] ++
          lastComp (st cs!"in_file").strD ++ e = (st cs!"out_dir").strD ++ ['/'] ++ 'T' :: (cs!"RAINED_COMP_MODEL." ++
          (st cs!"model").strD ++ ['.'] ++ lastComp (st cs!"in_file").strD ++ e) from by simp]
    exact allows_out (by decide) (by decide) ⟨e, he, rfl⟩
  unfold trainModelP
  revert hfiles
  cases (st cs!"arg_space").asList.getD [] with
  | nil => exact fun _ => Foots.raise _
  | cons f rest =>
    intro hfiles
    refine (loadSpaceP_foots L (hfiles f (by simp))).bind (fun s => ?_)
    refine (loadSecondP_foots L hfiles).bind (fun s2 => (loadSpaceP_foots L hph).bind (fun ph => ?_))
    refine Foots.bind (Foots.read hin (fun _ => Foots.ret _)) (fun content => Foots.compute (fun obj _ => ?_))
    refine (saveP_foots (hal _ (by simp)) _).bind (fun _ => ?_)
    split
    · refine exportModelP_foots obj (fun e he => ?_)
      rw [List.append_assoc _ cs!".params" e]
      apply hal
      simp only [List.mem_cons, List.not_mem_nil, or_false] at he
      rcases he with rfl | rfl | rfl | rfl <;> simp
    · exact Foots.ret _

theorem className_mem {m : PyObj} {data : List (Triple Str)} {arg : Space Str} {arg2 : Option (Space Str)} {s : Space Str}
    (h : composeObj m data arg arg2 = .ok s) :
    className m ∈ [cs!"WeightedAdditive", cs!"Dilation", cs!"Multiplicative", cs!"FullAdditive", cs!"LexicalFunction"] := by
  cases m with
  | composer cc =>
    obtain ⟨k, cols⟩ := cc
    cases k <;> simp [className]
  | lexfun m => simp [className]
  | _ => cases h

theorem applyModelP_foots {model trained : Option Str} (ht : ∀ t, trained = some t → t = (st cs!"trained_model").strD)
    (alpha beta lam : Option ℝ) (fmt : Option Str) :
    Foots c (Tool.outNode c st) (Tool.apply.MayTouch c argv st) (Tool.apply.MayWrite c st)
      (applyModelP L (st cs!"in_file").strD (st cs!"out_dir").strD model trained ((st cs!"arg_space").asList.getD [])
        alpha beta lam fmt) := by
  have hfiles : ∀ f ∈ (st cs!"arg_space").asList.getD [], Tool.apply.MayTouch c argv st (nodeOf c f) :=
    fun f hf => in_file_touch (sc := .apply) (List.mem_cons_of_mem _ (List.mem_cons_of_mem _ hf))
  have hin : Tool.apply.MayTouch c argv st (nodeOf c (st cs!"in_file").strD) :=
    in_file_touch (sc := .apply) (List.mem_cons_self)
  have htr : Tool.apply.MayTouch c argv st (nodeOf c (st cs!"trained_model").strD) :=
    in_file_touch (sc := .apply) (List.mem_cons_of_mem _ List.mem_cons_self)
  unfold applyModelP
  refine Foots.bind ?_ (fun m => ?_)
  · unfold modelObjP
    cases model with
    | some m => exact Foots.ofPy _
    | none =>
      cases trained with
      | none => exact Foots.raise _
      | some t =>
        obtain rfl := ht t rfl
        exact Foots.read htr (fun _ => Foots.ofPy _)
  · revert hfiles
    cases (st cs!"arg_space").asList.getD [] with
    | nil => exact fun _ => Foots.raise _
    | cons f rest =>
      intro hfiles
      refine (loadSpaceP_foots L (hfiles f (by simp))).bind (fun s => ?_)
      refine (loadSecondP_foots L hfiles).bind (fun s2 => (readP_foots hin).bind (fun content => ?_))
      refine Foots.compute (fun data _ => Foots.compute (fun s hs => ?_))
      refine printP_foots L s fmt (fun e he => ?_)
      rw [show (st cs!"out_dir").strD ++ cs!"/COMPOSED_SS" ++ ['.'] ++ className m ++ ['.'] ++
          lastComp (st cs!"in_file").strD ++ e = (st cs!"out_dir").strD ++ ['/'] ++ 'C' :: (cs!"OMPOSED_SS." ++
          className m ++ ['.'] ++ lastComp (st cs!"in_file").strD ++ e) from by simp]
      exact allows_out (by decide) (by decide) ⟨_, className_mem hs, e, he, rfl⟩

theorem parseArgsP_foot {sc : Tool} (L : Lib) (fs : Fs) {W : List Str → Prop} :
    Foot (sc.MayTouch fs.cwd argv st) W (parseArgsP sc.cli L.parseCfg argv) fs := by
  unfold parseArgsP
  cases hg : getopt sc.cli.short sc.cli.longs argv with
  | none => exact Foot.raise _ _
  | some or =>
    obtain ⟨opts, rest⟩ := or
    refine Foot.bind ?_ (fun st' g _ => Foot.ofMain _ _)
    unfold initialP
    match rest, hg with
    | [], _ => exact Foot.ret _ _
    | _ :: _ :: _, _ => exact Foot.ret _ _
    | [f], hg =>
      have hc : sc.configFile argv = some f := by unfold Tool.configFile; rw [hg]
      have key : ∀ r : Py Str, Foot (sc.MayTouch fs.cwd argv st) W (match r with
          | .ok txt => match L.parseCfg txt with
            | .ok cfg => Prog.ret (sc.cli.fromConfig cfg)
            | .error e => .raise (.raised e)
          | .error e => if sc.cli.mustOpen then .raise (.raised e) else .ret sc.cli.defaults) fs := by
        intro r
        cases r with
        | ok txt =>
          simp only
          cases L.parseCfg txt
          · exact Foot.raise _ _
          · exact Foot.ret _ _
        | error e =>
          simp only
          split
          · exact Foot.raise _ _
          · exact Foot.ret _ _
      constructor
      · rintro n (hn | hn)
        · exact Or.inr (Or.inl ⟨f, hc, hn⟩)
        · exact (key _).t n hn
      · exact fun n hn => (key _).w n hn

theorem configLoggingP_foot {sc : Tool} {fs : Fs} (h : ∀ f, (st cs!"log_file").asStr = some f → fs.exists_ (dirname f) = true) :
    Foot (sc.MayTouch fs.cwd argv st) (sc.MayWrite fs.cwd st) (configLoggingP (st cs!"log_file").asStr) fs := by
  unfold configLoggingP
  cases hl : (st cs!"log_file").asStr with
  | none => exact Foot.ret _ _
  | some f =>
    have hx := h f hl
    have ht : ∀ n, (n = nodeOf fs.cwd f ∨ n = (nodeOf fs.cwd f).dropLast ∨ n = nodeOf fs.cwd (dirname f)) →
        sc.MayTouch fs.cwd argv st n := fun n hn => Or.inr (Or.inr (Or.inr (Or.inr ⟨f, hl, hn⟩)))
    have hw : sc.MayWrite fs.cwd st (nodeOf fs.cwd f) := Or.inr ⟨f, hl, rfl⟩
    have hsolo : (createParentP f).solo fs = (.ok (), fs) := by
      show (if fs.exists_ (dirname f) = true then (.ret () : Prog Unit) else _).solo fs = _
      rw [if_pos hx]
      rfl
    refine Foot.bind ?_ (fun _ g e => ?_)
    · constructor
      · rintro n (hn | hn)
        · exact ht n (Or.inr (Or.inr hn))
        · have hn' : (if fs.exists_ (dirname f) = true then (.ret () : Prog Unit) else (makedirsP (dirname f)).bind raiseOs).touches fs n := hn
          rw [if_pos hx] at hn'
          exact hn'.elim
      · intro n hn
        have hn' : (if fs.exists_ (dirname f) = true then (.ret () : Prog Unit) else (makedirsP (dirname f)).bind raiseOs).writes fs n := hn
        rw [if_pos hx] at hn'
        exact hn'.elim
    · rw [hsolo] at e
      injection e with _ e
      subst e
      have key : ∀ r : Py Str, Foot (sc.MayTouch fs.cwd argv st) (sc.MayWrite fs.cwd st) (match r with
          | .ok _ => (Prog.ret () : Prog Unit)
          | .error _ => writeP f (.ok [])) fs := by
        intro r
        cases r with
        | ok _ => exact Foot.ret _ _
        | error e =>
          have hk : Foot (sc.MayTouch fs.cwd argv st) (sc.MayWrite fs.cwd st)
              ((Prog.ofPy (fs.openCall f).1).bind (fun node => (Prog.ofPy (.ok [] : Py Str)).bind (putAll node 0)))
              (fs.openCall f).2 :=
            Foot.compute (fun node _ => Foot.compute (fun t ht => by
              injection ht with ht
              subst ht
              exact Foot.ret _ _))
          constructor
          · rintro n (hn | hn | hn)
            · exact ht n (Or.inl hn)
            · exact ht n (Or.inr (Or.inl hn))
            · exact hk.t n hn
          · rintro n (hn | hn)
            · rw [hn.1]; exact hw
            · exact hk.w n hn
      constructor
      · rintro n (hn | hn)
        · exact ht n (Or.inl hn)
        · exact (key _).t n hn
      · exact fun n hn => (key _).w n hn

theorem main_foot {β : Type} {sc : Tool} {fs : Fs} {P : Settings → Prog β} (h : sc.Ready L fs argv st)
    (hP : ∀ g : Fs, g.cwd = fs.cwd → (∀ d, (st cs!"out_dir").asStr = some d → nodeOf fs.cwd (d ++ ['/']) ∈ g.dirs) →
      Foot (sc.MayTouch fs.cwd argv st) (sc.MayWrite fs.cwd st) (P st) g) :
    Foot (sc.MayTouch fs.cwd argv st) (sc.MayWrite fs.cwd st)
      ((parseArgsP sc.cli L.parseCfg argv).bind fun st => (configLoggingP (st cs!"log_file").asStr).bind fun _ => P st) fs := by
  refine (parseArgsP_foot L fs).bind (fun st' g e => ?_)
  rw [parseArgsP_solo, h.parsed] at e
  injection e with e1 e2
  injection e1 with e1
  subst e1
  subst e2
  refine (configLoggingP_foot h.log).bind (fun _ g e => ?_)
  have := solo_keeps (configLoggingP (st cs!"log_file").asStr) fs
  rw [e] at this
  exact hP g this.1 (fun d hd => this.2 _ (h.out d hd))

theorem Foot.need {α β : Type} {R W : List Str → Prop} {x : Option α} {Q : α → Prog β} {fs : Fs}
    (h : ∀ a, x = some a → Foot R W (Q a) fs) : Foot R W ((Prog.ofMain (require x)).bind Q) fs :=
  Foot.computeM (fun a ha => h a (require_ok.1 ha))

theorem asList_getD {v : OptVal} {l : List Str} (h : v.asList = some l) : v.asList.getD [] = l := by rw [h]; rfl

theorem bind_ret_foot {α β : Type} {R W : List Str → Prop} {P : Prog α} {fs : Fs} (b : β) (h : Foot R W P fs) :
    Foot R W (P.bind fun _ => .ret b) fs := h.bind (fun _ g _ => Foot.ret _ _)

/-- Alone, a run looks at and changes only what the settings name. -/
theorem script_foot {sc : Tool} {fs : Fs} (h : sc.Ready L fs argv st) :
    Foot (sc.MayTouch fs.cwd argv st) (sc.MayWrite fs.cwd st) (sc.prog L argv) fs := by
  have hat : ∀ (g : Fs) (d : Str), g.cwd = fs.cwd → (st cs!"out_dir").asStr = some d →
      (∀ d, (st cs!"out_dir").asStr = some d → nodeOf fs.cwd (d ++ ['/']) ∈ g.dirs) →
      At fs.cwd (Tool.outNode fs.cwd st) g := by
    intro g d h1 h2 h3
    refine ⟨h1, ?_⟩
    have := h3 d h2
    unfold Tool.outNode
    rwa [strD_of_asStr h2]
  cases sc with
  | core =>
    refine bind_ret_foot _ (main_foot h (fun g hc hd => ?_))
    refine Foot.need (fun pre hpre => Foot.need (fun od hod => Foot.need (fun fmt hfmt => ?_)))
    refine Foot.compute (fun gz _ => Foot.computeM (fun gz _ => ?_))
    have := core_foots (L := L) (c := fs.cwd) (argv := argv) (st := st) gz (st cs!"out_format").asStr g (hat g od hc hod hd)
    rwa [strD_of_asStr hpre, strD_of_asStr hod, strD_of_asStr hfmt] at this
  | periph =>
    refine bind_ret_foot _ (main_foot h (fun g hc hd => ?_))
    refine Foot.need (fun pre hpre => Foot.need (fun od hod => Foot.need (fun fmt hfmt => ?_)))
    refine Foot.compute (fun gz _ => Foot.computeM (fun gz _ => ?_))
    have ha := hat g od hc hod hd
    have hin : Foots fs.cwd (Tool.outNode fs.cwd st) (Tool.periph.MayTouch fs.cwd argv st)
        (Tool.periph.MayWrite fs.cwd st) (readInputP L pre fmt gz) := by
      rw [← strD_of_asStr hpre, ← strD_of_asStr hfmt]
      exact readInputP_foots L gz (fun f hf => in_file_touch (sc := .periph) (List.mem_cons_of_mem _ hf))
    have htr : ∀ (raw : Space Str) (core : Str), Tool.periph.MayTouch fs.cwd argv st (nodeOf fs.cwd core) →
        (core = (st cs!"core_space_file").strD ∨ ∃ d, (st cs!"core_in_dir").asStr = some d ∧ withSlash d <+: core) →
        Foots fs.cwd (Tool.outNode fs.cwd st) (Tool.periph.MayTouch fs.cwd argv st)
          (Tool.periph.MayWrite fs.cwd st) (transformRawP L raw pre od (st cs!"out_format").asStr core) := by
      intro raw core h1 h2
      rw [← strD_of_asStr hpre, ← strD_of_asStr hod]
      exact transformRawP_foots h1 h2
    cases hcd : (st cs!"core_in_dir").asStr with
    | some d =>
      refine (hin.bind (fun raw => Foots.stat (in_dir_self (sc := .periph) hcd) (fun b => ?_))) g ha
      split
      · refine (listdirP_foots (sc := .periph) hcd _).bind (fun names => forP_foots _ _ (fun _ name _ => ?_))
        exact htr raw _ (in_dir_touch (sc := .periph) hcd name) (Or.inr ⟨d, hcd, List.prefix_append _ _⟩)
      · exact Foots.raise _
    | none =>
      refine Foot.need (fun core hcore => ?_)
      refine (hin.bind (fun raw => htr raw core ?_ (Or.inl (strD_of_asStr hcore).symm))) g ha
      rw [← strD_of_asStr hcore]
      exact in_file_touch (sc := .periph) List.mem_cons_self
  | sims =>
    refine bind_ret_foot _ (main_foot h (fun g hc hd => ?_))
    refine Foot.need (fun f hf => Foot.need (fun od hod => Foot.need (fun ms hms => Foot.need (fun cols hcols => ?_))))
    have ha := hat g od hc hod hd
    have hcs : ∀ files, (∀ f ∈ files, Tool.sims.MayTouch fs.cwd argv st (nodeOf fs.cwd f)) →
        (files = (st cs!"spaces").asList.getD [] ∨ ∃ d name, (st cs!"in_dir").asStr = some d ∧ files = [withSlash d ++ name]) →
        Foots fs.cwd (Tool.outNode fs.cwd st) (Tool.sims.MayTouch fs.cwd argv st)
          (Tool.sims.MayWrite fs.cwd st) (computeSimP L f cols od ms files) := by
      intro files h1 h2
      rw [← strD_of_asStr hf, ← strD_of_asStr hod]
      exact computeSimP_foots (asList_getD hms).symm h1 h2
    cases hcd : (st cs!"in_dir").asStr with
    | some d =>
      refine (Foots.stat (in_dir_self (sc := .sims) hcd) (fun b => ?_)) g ha
      split
      · refine (listdirP_foots (sc := .sims) hcd _).bind (fun names => forP_foots _ _ (fun _ name _ => ?_))
        refine hcs _ (fun p hp => ?_) (Or.inr ⟨d, name, hcd, rfl⟩)
        rw [List.mem_singleton] at hp
        subst hp
        exact in_dir_touch (sc := .sims) hcd name
      · exact Foots.raise _
    | none =>
      refine Foot.need (fun sp hsp => ?_)
      refine hcs sp (fun p hp => ?_) (Or.inl (asList_getD hsp).symm) g ha
      exact in_file_touch (sc := .sims) (List.mem_cons_of_mem _ (by rw [asList_getD hsp]; exact hp))
  | neigh =>
    refine bind_ret_foot _ (main_foot h (fun g hc hd => ?_))
    refine Foot.compute (fun n _ => ?_)
    refine Foot.need (fun f hf => Foot.need (fun od hod => Foot.need (fun ms hms => Foot.need (fun sp hsp => ?_))))
    have := computeNeighboursP_foots (L := L) (c := fs.cwd) (argv := argv) (st := st) n g (hat g od hc hod hd)
    rwa [strD_of_asStr hf, strD_of_asStr hod, strD_of_asStr hms, asList_getD hsp] at this
  | eval =>
    refine main_foot h (fun g hc hd => ?_)
    refine Foot.need (fun ms hms => Foot.need (fun cols hcols => ?_))
    split
    · exact Foot.raise _ _
    · cases hcd : (st cs!"in_dir").asStr with
      | some d =>
        have key : FootsC fs.cwd (Tool.eval.MayTouch fs.cwd argv st) (Tool.eval.MayWrite fs.cwd st)
            (evaluateSimBatchP L d cols ms (st cs!"filter_").strD) := by
          refine FootsC.stat (in_dir_self (sc := .eval) hcd) (fun b => ?_)
          split
          · refine FootsC.bind ?_ (fun names =>
              evalLoopP_foots (fun name => in_dir_touch (sc := .eval) hcd name) _ _ _)
            exact FootsC.list (fun _ hn => Or.inr (Or.inr (Or.inr (Or.inl ⟨d, hcd, Or.inr hn⟩)))) (fun _ => FootsC.ofPy _)
          · exact fun fs _ => Foot.raise _ fs
        exact key g hc
      | none =>
        refine Foot.need (fun f hf => ?_)
        have key : FootsC fs.cwd (Tool.eval.MayTouch fs.cwd argv st) (Tool.eval.MayWrite fs.cwd st)
            ((evaluateSimP L f cols ms).bind fun r => .ret [(([] : Str), r)]) := by
          refine (evaluateSimP_foots ?_ _ _).bind (fun _ => FootsC.ret _)
          rw [← strD_of_asStr hf]
          exact in_file_touch (sc := .eval) List.mem_cons_self
        exact key g hc
  | train =>
    refine bind_ret_foot _ (main_foot h (fun g hc hd => ?_))
    refine Foot.need (fun f hf => Foot.need (fun od hod => Foot.need (fun ms hms => Foot.need (fun sp hsp => Foot.need (fun ph hph => ?_)))))
    refine Foot.compute (fun cv _ => Foot.compute (fun ic _ => Foot.computeM (fun ic _ => Foot.computeM (fun cv _ =>
      Foot.compute (fun ex _ => Foot.computeM (fun ex _ => Foot.compute (fun pr _ => Foot.computeM (fun _ _ => ?_))))))))
    have := trainModelP_foots (L := L) (c := fs.cwd) (argv := argv) (st := st) (st cs!"regression").asStr cv ic pr.1 pr.2 ex g
      (hat g od hc hod hd)
    rwa [strD_of_asStr hf, strD_of_asStr hod, strD_of_asStr hms, asList_getD hsp, strD_of_asStr hph] at this
  | apply =>
    refine bind_ret_foot _ (main_foot h (fun g hc hd => ?_))
    refine Foot.need (fun f hf => Foot.need (fun od hod => Foot.computeM (fun _ _ => Foot.need (fun sp hsp => ?_))))
    refine Foot.compute (fun al _ => Foot.compute (fun be _ => Foot.compute (fun la _ => ?_)))
    have := applyModelP_foots (L := L) (c := fs.cwd) (argv := argv) (st := st) (model := (st cs!"model").asStr)
      (trained := (st cs!"trained_model").asStr) (fun t ht => (strD_of_asStr ht).symm) al be la (st cs!"out_format").asStr g
      (hat g od hc hod hd)
    rwa [strD_of_asStr hf, strD_of_asStr hod, asList_getD hsp] at this

end
end
end Dissect
