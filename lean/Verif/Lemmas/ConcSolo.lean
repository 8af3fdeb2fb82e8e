import Verif.Lemmas.ConcCore
import Verif.Lemmas.FsDirs
import Verif.Lemmas.Main

/-! # A script that runs alone does what the big-step model says -/

namespace Dissect
noncomputable section

namespace Prog
variable {α β : Type}

theorem solo_bind (P : Prog α) (Q : α → Prog β) : ∀ fs, (P.bind Q).solo fs =
    match (P.solo fs).1 with
    | .ok a => (Q a).solo (P.solo fs).2
    | .error e => (.error e, (P.solo fs).2) := by
  induction P with
  | ret a => exact fun _ => rfl
  | raise e => exact fun _ => rfl
  | stat p k ih => exact fun fs => ih _ fs
  | list p k ih => exact fun fs => ih _ fs
  | mkdir p k ih => exact fun fs => ih _ _
  | read p k ih => exact fun fs => ih _ fs
  | openW p k ih => exact fun fs => ih _ _
  | put m off c k ih => exact fun fs => ih _

theorem solo_bind_ok {P : Prog α} {Q : α → Prog β} {fs g : Fs} {a : α} (h : P.solo fs = (.ok a, g)) :
    (P.bind Q).solo fs = (Q a).solo g := by
  rw [solo_bind, h]

theorem solo_bind_error {P : Prog α} {Q : α → Prog β} {fs g : Fs} {e : MainErr} (h : P.solo fs = (.error e, g)) :
    (P.bind Q).solo fs = (.error e, g) := by
  rw [solo_bind, h]

theorem solo_ofMain (x : Main α) (fs : Fs) : (ofMain x).solo fs = (x, fs) := by cases x <;> rfl

theorem solo_ofPy (x : Py α) (fs : Fs) : (ofPy x).solo fs = (Main.lift x, fs) := solo_ofMain _ _

end Prog

open Prog

theorem lift_bind {α β : Type} (x : Py α) (f : α → Py β) : Main.lift (x >>= f) = Main.lift x >>= fun a => Main.lift (f a) := by
  cases x <;> rfl

/-- The program succeeds with the disk `g` when `x = .ok g`, and raises what `x` raises when `x` fails. -/
def Acts (P : Prog Unit) (fs : Fs) (x : Main Fs) : Prop :=
  (∀ g, x = .ok g → P.solo fs = (.ok (), g)) ∧ (∀ e, x = .error e → ∃ g, P.solo fs = (.error e, g))

theorem Acts.bind {P : Prog Unit} {Q : Unit → Prog Unit} {fs : Fs} {x : Main Fs} {y : Fs → Main Fs}
    (h : Acts P fs x) (h2 : ∀ g, x = .ok g → Acts (Q ()) g (y g)) : Acts (P.bind Q) fs (x >>= y) := by
  cases x with
  | error e =>
    obtain ⟨g, he⟩ := h.2 e rfl
    exact ⟨fun g hg => (by cases hg), fun e' he' => ⟨g, (by injection he' with he'; subst he'; exact solo_bind_error he)⟩⟩
  | ok g =>
    have h1 := h.1 g rfl
    have h3 := h2 g rfl
    constructor
    · intro g' hg'
      rw [solo_bind_ok h1]; exact h3.1 g' hg'
    · intro e he
      rw [solo_bind_ok h1]; exact h3.2 e he

theorem Acts.reads {α : Type} {P : Prog α} {Q : α → Prog Unit} {fs : Fs} {x : Main α} {y : α → Main Fs}
    (h : P.solo fs = (x, fs)) (h2 : ∀ a, x = .ok a → Acts (Q a) fs (y a)) : Acts (P.bind Q) fs (x >>= y) := by
  cases x with
  | error e => exact ⟨fun g hg => (by cases hg), fun e' he' => ⟨fs, (by injection he' with he'; subst he'; exact solo_bind_error h)⟩⟩
  | ok a =>
    have h3 := h2 a rfl
    constructor
    · intro g' hg'
      rw [solo_bind_ok h]; exact h3.1 g' hg'
    · intro e he
      rw [solo_bind_ok h]; exact h3.2 e he

/-- `Acts.bind` for exceptions. -/
theorem Acts.bindPy {P : Prog Unit} {Q : Unit → Prog Unit} {fs : Fs} {x : Py Fs} {y : Fs → Py Fs}
    (h : Acts P fs (Main.lift x)) (h2 : ∀ g, x = .ok g → Acts (Q ()) g (Main.lift (y g))) :
    Acts (P.bind Q) fs (Main.lift (x >>= y)) := by
  rw [lift_bind]
  exact h.bind (fun g hg => h2 g (lift_ok.1 hg))

/-- `Acts.reads` for exceptions. -/
theorem Acts.readsPy {α : Type} {P : Prog α} {Q : α → Prog Unit} {fs : Fs} {x : Py α} {y : α → Py Fs}
    (h : P.solo fs = (Main.lift x, fs)) (h2 : ∀ a, x = .ok a → Acts (Q a) fs (Main.lift (y a))) :
    Acts (P.bind Q) fs (Main.lift (x >>= y)) := by
  rw [lift_bind]
  exact Acts.reads h (fun g hg => h2 g (lift_ok.1 hg))

theorem Acts.ret (fs : Fs) : Acts (.ret ()) fs (.ok fs) := ⟨fun g hg => (by obtain rfl := ok_inj' hg; rfl), fun e he => (by cases he)⟩
where ok_inj' {a b : Fs} (h : (.ok a : Main Fs) = .ok b) : a = b := by injection h

theorem Acts.raise (e : MainErr) (fs : Fs) : Acts (.raise e) fs (.error e) :=
  ⟨fun g hg => (by cases hg), fun e' he' => ⟨fs, (by injection he' with he'; subst he'; rfl)⟩⟩

theorem reads_bind {α β : Type} {P : Prog α} {Q : α → Prog β} {fs : Fs} {x : Main α} {y : α → Main β}
    (h : P.solo fs = (x, fs)) (h2 : ∀ a, x = .ok a → (Q a).solo fs = (y a, fs)) :
    (P.bind Q).solo fs = (x >>= y, fs) := by
  cases x with
  | error e => exact solo_bind_error h
  | ok a => rw [solo_bind_ok h]; exact h2 a rfl

theorem reads_bindPy {α β : Type} {P : Prog α} {Q : α → Prog β} {fs : Fs} {x : Py α} {y : α → Py β}
    (h : P.solo fs = (Main.lift x, fs)) (h2 : ∀ a, x = .ok a → (Q a).solo fs = (Main.lift (y a), fs)) :
    (P.bind Q).solo fs = (Main.lift (x >>= y), fs) := by
  rw [lift_bind]
  exact reads_bind h (fun a ha => h2 a (lift_ok.1 ha))

/-! ### Directories -/

theorem solo_mkdir {fs : Fs} {name : Str} (hx : fs.exists_ name = false) :
    (∀ g, fs.mkdir name = .ok g → (Prog.mkdir name (.ret : Option MkErr → _)).solo fs = (.ok none, g)) ∧
    (∀ e, fs.mkdir name = .error e → (Prog.mkdir name (.ret : Option MkErr → _)).solo fs = (.ok (some .other), fs)) := by
  constructor
  · intro g hg
    show ((Prog.ret (fs.mkdirCall name).1 : Prog (Option MkErr)).solo (fs.mkdirCall name).2) = _
    unfold Fs.mkdirCall
    rw [hg]
    rfl
  · intro e he
    show ((Prog.ret (fs.mkdirCall name).1 : Prog (Option MkErr)).solo (fs.mkdirCall name).2) = _
    unfold Fs.mkdirCall
    rw [he, hx]
    rfl

theorem mkdir_dirs {fs g : Fs} {p : Str} (h : fs.mkdir p = .ok g) : g.dirs = fs.resolve p :: fs.dirs := by
  unfold Fs.mkdir at h
  split at h
  · cases h
  · injection h with h
    subst h
    rfl

theorem makedirsP_solo : ∀ (n : ℕ) (fs : Fs) (name : Str), name.length ≤ n → fs.exists_ name = false →
    (∀ g, fs.makedirs name = .ok g → (makedirsP name).solo fs = (.ok none, g)) ∧
    (∀ e, fs.makedirs name = .error e → ∃ g, (makedirsP name).solo fs = (.ok (some .other), g)) ∧
    (∀ g, fs.makedirs name = .ok g → ∀ d ∈ g.dirs, d ∈ fs.dirs ∨ d.length ≤ (fs.resolve name).length) := by
  intro n
  induction n with
  | zero =>
    intro fs name hl hx
    obtain rfl : name = [] := List.length_eq_zero_iff.1 (by omega)
    have hs : Fs.makedirsSplit [] = ([], []) := rfl
    unfold makedirsP Fs.makedirs
    rw [dif_neg (by simp [hs]), dif_neg (by simp [hs])]
    have := solo_mkdir hx
    refine ⟨this.1, fun e he => ⟨fs, this.2 e he⟩, fun g hg d hd => ?_⟩
    rw [mkdir_dirs hg] at hd
    rcases List.mem_cons.1 hd with rfl | hd
    · exact Or.inr le_rfl
    · exact Or.inl hd
  | succ n ih =>
    intro fs name hl hx
    have hmk := solo_mkdir hx
    have hdirs : ∀ g, fs.mkdir name = .ok g → ∀ d ∈ g.dirs, d ∈ fs.dirs ∨ d.length ≤ (fs.resolve name).length := by
      intro g hg d hd
      rw [mkdir_dirs hg] at hd
      rcases List.mem_cons.1 hd with rfl | hd
      · exact Or.inr le_rfl
      · exact Or.inl hd
    unfold makedirsP
    by_cases hc : (Fs.makedirsSplit name).1 ≠ [] ∧ (Fs.makedirsSplit name).2 ≠ []
    · rw [dif_pos hc]
      have hne : name ≠ [] := by rintro rfl; exact hc.1 rfl
      have hlt := Fs.makedirsSplit_lt name hc.2
      obtain ⟨s1, s2, s3, s4, s5⟩ := makedirsSplit_spec name hne
      have hres : ∀ g : Fs, g.resolve name = g.resolve (Fs.makedirsSplit name).1 ++ pathComps (Fs.makedirsSplit name).2 :=
        fun g => Fs.resolve_split g s2 s3 s4
      show (∀ g, _ → ((if fs.exists_ (Fs.makedirsSplit name).1 = true then Prog.mkdir name .ret
          else _ : Prog (Option MkErr)).solo fs) = _) ∧
        (∀ e, _ → ∃ g, ((if fs.exists_ (Fs.makedirsSplit name).1 = true then Prog.mkdir name .ret
          else _ : Prog (Option MkErr)).solo fs) = _) ∧ _
      cases hh : fs.exists_ (Fs.makedirsSplit name).1 with
      | true =>
        unfold Fs.makedirs
        rw [dif_neg (by simp [hh])]
        rw [if_pos rfl]
        exact ⟨hmk.1, fun e he => ⟨fs, hmk.2 e he⟩, hdirs⟩
      | false =>
        obtain ⟨i1, i2, i3⟩ := ih fs (Fs.makedirsSplit name).1 (by omega) hh
        unfold Fs.makedirs
        rw [dif_pos ⟨hc.1, hc.2, hh⟩]
        rw [if_neg (by simp)]
        cases hm : fs.makedirs (Fs.makedirsSplit name).1 with
        | error e =>
          obtain ⟨g, hg⟩ := i2 e hm
          refine ⟨fun g hg => (by cases hg), fun e' he' => ⟨g, ?_⟩, fun g hg => (by cases hg)⟩
          rw [solo_bind_ok hg]
          rfl
        | ok g =>
          have hg := i1 g hm
          have hd := i3 g hm
          have hfc := Fs.makedirs_files _ le_rfl hm
          rw [solo_bind_ok hg]
          rw [if_neg (by simp)]
          by_cases ht : (Fs.makedirsSplit name).2 = ['.']
          · simp only [if_pos ht]
            refine ⟨fun g' hg' => ?_, fun e he => (by cases he), fun g' hg' d hd' => ?_⟩
            · injection hg' with hg'; subst hg'; rfl
            · injection hg' with hg'; subst hg'
              rcases hd d hd' with h | h
              · exact Or.inl h
              · right
                rw [hres fs, List.length_append]; omega
          · simp only [if_neg ht]
            have hcomp : pathComps (Fs.makedirsSplit name).2 = [(Fs.makedirsSplit name).2] :=
              by
                rw [pathComps_noslash s1, if_neg (by simp [hc.2, ht])]
            have hgres : g.resolve name = fs.resolve name := by unfold Fs.resolve; rw [hfc.2]
            have hxg : g.exists_ name = false := by
              cases hb : g.exists_ name with
              | false => rfl
              | true =>
                exfalso
                obtain ⟨h1, h2⟩ := Fs.not_exists hne hx
                rcases (Fs.exists_of hb).2 with h | h
                · rw [hgres] at h
                  rcases hd _ h with h | h
                  · exact h1 h
                  · rw [hres fs, hcomp, List.length_append] at h
                    simp at h
                · rw [hgres, hfc.1] at h
                  exact h2 h
            have hmk' := solo_mkdir hxg
            refine ⟨hmk'.1, fun e he => ⟨g, hmk'.2 e he⟩, fun g' hg' d hd' => ?_⟩
            rw [mkdir_dirs hg', hgres] at hd'
            rcases List.mem_cons.1 hd' with rfl | hd'
            · exact Or.inr le_rfl
            · rcases hd d hd' with h | h
              · exact Or.inl h
              · right; rw [hres fs, List.length_append]; omega
    · rw [dif_neg hc]
      unfold Fs.makedirs
      rw [dif_neg (fun h => hc ⟨h.1, h.2.1⟩)]
      exact ⟨hmk.1, fun e he => ⟨fs, hmk.2 e he⟩, hdirs⟩

/-- `os.mkdir` and `os.makedirs` raise nothing but `OSError`. -/
theorem mkdir_error {fs : Fs} {p : Str} {e : PyErr} (h : fs.mkdir p = .error e) : e = .osError := by
  unfold Fs.mkdir at h
  split at h
  · injection h with h; exact h.symm
  · cases h

theorem makedirs_error : ∀ (n : ℕ) {fs : Fs} {p : Str} {e : PyErr}, p.length ≤ n → fs.makedirs p = .error e → e = .osError := by
  intro n
  induction n with
  | zero =>
    intro fs p e hn h
    have : p = [] := List.length_eq_zero_iff.1 (by omega)
    subst this
    rw [Fs.makedirs, dif_neg (by simp [Fs.makedirsSplit, pathSplit])] at h
    exact mkdir_error h
  | succ n ih =>
    intro fs p e hn h
    rw [Fs.makedirs] at h
    split at h
    · rename_i hc
      have hlt := Fs.makedirsSplit_lt p hc.2.1
      split at h
      · rename_i e' hm
        injection h with h
        subst h
        exact ih (by omega) hm
      · split at h
        · cases h
        · exact mkdir_error h
    · exact mkdir_error h

theorem createParentP_does (fs : Fs) (f : Str) : Acts (createParentP f) fs (Main.lift (fs.createParentDirectories f)) := by
  unfold createParentP Fs.createParentDirectories
  have hs : ∀ Q : Bool → Prog Unit, (Prog.stat (dirname f) Q).solo fs = (Q (fs.exists_ (dirname f))).solo fs := fun _ => rfl
  cases hx : fs.exists_ (dirname f) with
  | true =>
    unfold Acts
    rw [hs, hx, if_pos rfl]
    exact Acts.ret fs
  | false =>
    obtain ⟨i1, i2, -⟩ := makedirsP_solo _ fs (dirname f) le_rfl hx
    unfold Acts
    rw [hs, hx, if_neg (by simp), if_neg (by simp)]
    cases hm : fs.makedirs (dirname f) with
    | ok g =>
      refine ⟨fun g' hg' => ?_, fun e he => (by cases he)⟩
      injection hg' with hg'
      subst hg'
      rw [solo_bind_ok (i1 g hm)]
      rfl
    | error e =>
      obtain ⟨g, hg⟩ := i2 e hm
      refine ⟨fun g' hg' => (by cases hg'), fun e' he => ⟨g, ?_⟩⟩
      injection he with he
      subst he
      rw [solo_bind_ok hg, makedirs_error _ le_rfl hm]
      rfl

/-! ### Files -/

theorem writeAt_end (s : Str) (c : Char) : writeAt s s.length c = s ++ [c] := by
  unfold writeAt
  simp

theorem setEntries_twice {κ β : Type} [DecidableEq κ] (k : κ) (v w : β) (l : List (κ × β)) :
    Dict.setEntries k w (Dict.setEntries k v l) = Dict.setEntries k w l := by
  induction l with
  | nil => simp [Dict.setEntries]
  | cons e es ih =>
    unfold Dict.setEntries
    by_cases h : e.1 = k
    · simp [h, Dict.setEntries]
    · simp [h, Dict.setEntries, ih]

theorem set_twice {κ β : Type} [DecidableEq κ] (d : Dict κ β) (k : κ) (v w : β) : (d.set k v).set k w = d.set k w := by
  unfold Dict.set
  simp only [Dict.mk.injEq]
  exact setEntries_twice _ _ _ _

theorem putAll_solo (node : List Str) : ∀ (cs done : Str) (fs : Fs),
    (putAll node done.length cs).solo { fs with files := fs.files.set node done } =
      (.ok (), { fs with files := fs.files.set node (done ++ cs) })
  | [], done, fs => by
    rw [List.append_nil]; rfl
  | c :: cs, done, fs => by
    have h1 : (fs.files.set node done).get? node = some done := by rw [Dict.get?_set, if_pos rfl]
    have h2 : Fs.putCall { fs with files := fs.files.set node done } node done.length c =
        { fs with files := fs.files.set node (done ++ [c]) } := by
      unfold Fs.putCall
      simp only [h1, Option.getD_some, writeAt_end, set_twice]
    have h3 := putAll_solo node cs (done ++ [c]) fs
    rw [List.length_append, List.append_assoc] at h3
    show (putAll node (done.length + 1) cs).solo (Fs.putCall { fs with files := fs.files.set node done } node done.length c) = _
    rw [h2]
    exact h3

theorem write_empty_ok {fs g : Fs} {p txt : Str} (h : fs.write p txt = .ok g) :
    fs.write p [] = .ok { fs with files := fs.files.set (fs.resolve p) [] } ∧
      g = { fs with files := fs.files.set (fs.resolve p) txt } := by
  unfold Fs.write at h ⊢
  split at h
  · cases h
  · rename_i hc
    rw [if_neg hc]
    injection h with h
    exact ⟨rfl, h.symm⟩

theorem write_empty_error {fs : Fs} {p txt : Str} {e : PyErr} (h : fs.write p txt = .error e) :
    fs.write p [] = .error e := by
  unfold Fs.write at h ⊢
  split at h
  · rename_i hc
    rw [if_pos hc]
    exact h
  · cases h

theorem writeP_does (fs : Fs) (p : Str) (txt : Py Str) :
    Acts (writeP p txt) fs (Main.lift (fs.writeText p txt)) := by
  unfold writeP
  have hs : ∀ Q : Py (List Str) → Prog Unit, (Prog.openW p Q).solo fs = (Q (fs.openCall p).1).solo (fs.openCall p).2 :=
    fun _ => rfl
  unfold Acts
  simp only [hs]
  cases hw : fs.write p [] with
  | error e =>
    have hc : fs.openCall p = (.error e, fs) := by unfold Fs.openCall; rw [hw]
    have hr : ∀ Q : List Str → Prog Unit, ((Prog.ofPy (.error e)).bind Q).solo fs = (.error (.raised e), fs) :=
      fun Q => rfl
    rw [hc]
    have hx : fs.writeText p txt = .error e := by unfold Fs.writeText; rw [hw]
    rw [hx]
    exact ⟨fun g hg => (by cases hg), fun e' he' => ⟨fs, (by injection he' with he'; subst he'; exact hr _)⟩⟩
  | ok g0 =>
    have hc : fs.openCall p = (.ok (fs.resolve p), g0) := by unfold Fs.openCall; rw [hw]
    rw [hc]
    have hg0 := (write_empty_ok hw).2
    cases txt with
    | error e =>
      have hx : fs.writeText p (.error e) = .error e := by unfold Fs.writeText; rw [hw]; rfl
      rw [hx]
      exact ⟨fun g hg => (by cases hg), fun e' he' => ⟨g0, (by injection he' with he'; subst he'; rfl)⟩⟩
    | ok t =>
      rw [Fs.writeText_of_ok]
      have h1 : ∃ g, fs.write p t = .ok g := by
        cases ht : fs.write p t with
        | ok g => exact ⟨g, rfl⟩
        | error e => rw [write_empty_error ht] at hw; cases hw
      obtain ⟨g, hg⟩ := h1
      have h2 := (write_empty_ok hg).2
      refine ⟨fun g' hg' => ?_, fun e he => ?_⟩
      · have h3 : fs.write p t = .ok g' := lift_ok.1 hg'
        rw [hg] at h3
        injection h3 with h3
        subst h3
        have := putAll_solo (fs.resolve p) t [] fs
        rw [List.nil_append, ← hg0, ← h2] at this
        exact this
      · have h3 : Main.lift (fs.write p t) = .error e := he
        rw [hg] at h3
        cases h3

theorem writeP_does' (fs : Fs) (p txt : Str) : Acts (writeP p (.ok txt)) fs (Main.lift (fs.write p txt)) := by
  have h := writeP_does fs p (.ok txt)
  rwa [Fs.writeText_of_ok] at h

theorem saveP_does (fs : Fs) (pickled f : Str) : Acts (saveP pickled f) fs (Main.lift (fs.save pickled f)) := by
  unfold saveP Fs.save
  exact (createParentP_does fs f).bindPy (fun g _ => writeP_does' g f pickled)

theorem configLoggingP_does (fs : Fs) (file : Option Str) :
    Acts (configLoggingP file) fs (Main.lift (configLogging fs file)) := by
  cases file with
  | none => exact Acts.ret fs
  | some f =>
    unfold configLoggingP configLogging
    refine (createParentP_does fs f).bindPy (fun g _ => ?_)
    have hs : ∀ Q : Py Str → Prog Unit, (Prog.read f Q).solo g = (Q (g.read f)).solo g := fun _ => rfl
    unfold Acts
    rw [hs]
    cases g.read f with
    | ok _ => exact Acts.ret g
    | error e => exact writeP_does' g f []

/-! ### Reading and exporting spaces -/

theorem readP_solo (fs : Fs) (p : Str) : (readP p).solo fs = (Main.lift (fs.read p), fs) := solo_ofPy _ _

theorem buildRowsP_solo (fs : Fs) (rows : Option Str) : (buildRowsP rows).solo fs = (Main.lift (buildRows fs rows), fs) := by
  cases rows with
  | none => rfl
  | some f => exact reads_bindPy (readP_solo fs f) (fun c _ => reads_bindPy (solo_ofPy _ _) (fun x _ => rfl))

theorem buildColsP_solo (fs : Fs) (fmt : Str) (cols : Option Str) :
    (buildColsP fmt cols).solo fs = (Main.lift (buildCols fs fmt cols), fs) := by
  cases cols with
  | some f => exact reads_bindPy (readP_solo fs f) (fun c _ => reads_bindPy (solo_ofPy _ _) (fun x _ => rfl))
  | none =>
    unfold buildColsP buildCols
    simp only
    split <;> rfl

theorem rowsOrDataP_solo (fs : Fs) (data : Str) (r : Option (List Str × Dict Str ℤ)) :
    (rowsOrDataP data r).solo fs = (Main.lift (rowsOrData fs data r), fs) := by
  cases r with
  | some x => rfl
  | none => exact reads_bindPy (readP_solo fs data) (fun c _ => solo_ofPy _ _)

theorem buildMatP_solo (io : NumIO) (fs : Fs) (fmt data : Str) (r c : Dict Str ℤ) :
    (buildMatP io fmt data r c).solo fs = (Main.lift (buildMat io fs fmt data r c), fs) :=
  reads_bindPy (readP_solo fs data) (fun c _ => solo_ofPy _ _)

theorem buildWithP_solo (io : NumIO) (fs : Fs) (data fmt : Str) (rows cols : Option Str) :
    (buildWithP io data fmt rows cols).solo fs = (Main.lift (buildWith io fs data fmt rows cols), fs) := by
  unfold buildWithP buildWith
  refine reads_bindPy (buildRowsP_solo fs rows) (fun r _ => ?_)
  refine reads_bindPy (buildColsP_solo fs fmt cols) (fun c _ => ?_)
  refine reads_bindPy (rowsOrDataP_solo fs data r) (fun ir _ => ?_)
  refine reads_bindPy (buildMatP_solo io fs fmt data _ _) (fun m _ => ?_)
  exact reads_bindPy (solo_ofPy _ _) (fun _ _ => solo_ofPy _ _)

theorem exportMatrixP_does (io : NumIO) (fs : Fs) (s : Space Str) (store : Csr ℝ) (pre : Str) (format : Option Str) :
    Acts (exportMatrixP io s store pre format) fs (Main.lift (exportMatrix io fs s store pre format)) := by
  unfold exportMatrixP exportMatrix
  cases format with
  | none => exact Acts.ret fs
  | some f =>
    simp only
    by_cases h1 : f = fmtDm
    · rw [if_pos h1, if_pos h1]
      exact writeP_does fs _ _
    · rw [if_neg h1, if_neg h1]
      by_cases h2 : f = fmtSm
      · rw [if_pos h2, if_pos h2]
        by_cases h3 : s.id2col = []
        · rw [if_pos h3, if_pos h3]
          exact Acts.raise _ _
        · rw [if_neg h3, if_neg h3]
          exact writeP_does fs _ _
      · rw [if_neg h2, if_neg h2]
        exact Acts.raise _ _

theorem exportRowColumnP_does (fs : Fs) (s : Space Str) (pre : Str) :
    Acts (exportRowColumnP s pre) fs (Main.lift (exportRowColumn fs s pre)) := by
  unfold exportRowColumnP exportRowColumn
  refine Acts.bindPy ?_ (fun g _ => writeP_does' g _ _)
  unfold exportColsP exportCols
  split
  · exact writeP_does' fs _ _
  · exact Acts.ret fs

theorem exportP_does (io : NumIO) (fs : Fs) (s : Space Str) (store : Csr ℝ) (pre : Str) (format : Option Str) :
    Acts (exportP io s store pre format) fs (Main.lift (Space.export io fs s store pre format)) :=
  (createParentP_does fs pre).bindPy fun g _ =>
    (exportMatrixP_does io g s store pre format).bindPy fun g' _ => exportRowColumnP_does g' s pre

theorem loadSpace_eq (L : Lib) (fs : Fs) (f : Str) : loadSpace L fs f = spaceOf L (fs.read f) := by
  unfold loadSpace spaceOf Fs.load
  cases fs.read f with
  | error e => rfl
  | ok txt =>
    simp only [ok_bind]
    cases L.undump txt with
    | none => rfl
    | some o => cases o <;> rfl

theorem loadModel_eq (L : Lib) (fs : Fs) (f : Str) : loadModel L fs f = modelOf L (fs.read f) := by
  unfold loadModel modelOf Fs.load
  cases fs.read f with
  | error e => rfl
  | ok txt =>
    simp only [ok_bind]
    cases L.undump txt with
    | none => rfl
    | some o => cases o <;> rfl

theorem loadSpaceP_solo (L : Lib) (fs : Fs) (f : Str) : (loadSpaceP L f).solo fs = (Main.lift (loadSpace L fs f), fs) := by
  rw [loadSpace_eq]
  exact solo_ofPy _ _

theorem loadSecondP_solo (L : Lib) (fs : Fs) (files : List Str) :
    (loadSecondP L files).solo fs = (Main.lift (loadSecond L fs files), fs) := by
  match files with
  | [] => rfl
  | [_] => rfl
  | [_, f] => exact reads_bindPy (loadSpaceP_solo L fs f) (fun s _ => rfl)
  | _ :: _ :: _ :: _ => rfl

theorem forP_does {α : Type} {f : ℕ → α → Prog Unit} {g : ℕ → α → Fs → Py Fs} : ∀ (i : ℕ) (l : List α) (fs : Fs),
    (∀ j x fs, Acts (f j x) fs (Main.lift (g j x fs))) → Acts (forP f i l) fs (Main.lift (forFs g i l fs))
  | _, [], fs, _ => Acts.ret fs
  | i, x :: xs, fs, h => (h i x fs).bindPy (fun fs' _ => forP_does (i + 1) xs fs' h)

theorem exportOptP_does (L : Lib) (fs : Fs) (s : Space Str) (pre : Str) (fmt : Option Str) :
    Acts (exportOptP L s pre fmt) fs (Main.lift (exportOpt L fs s pre fmt)) := by
  cases fmt with
  | none => exact Acts.ret fs
  | some f => exact exportP_does _ _ _ _ _ _

theorem printP_does (L : Lib) (fs : Fs) (s : Space Str) (file : Str) (fmt : Option Str) :
    Acts (printP L s file fmt) fs (Main.lift (do
      let fs1 ← fs.save (L.dump (.space s)) (file ++ cs!".pkl")
      exportOpt L fs1 s file fmt)) :=
  (saveP_does fs _ _).bindPy (fun g _ => exportOptP_does L g s file fmt)

theorem fileIfExistsP_solo (fs : Fs) (f : Str) : (fileIfExistsP f).solo fs = (.ok (fileIfExists fs f), fs) := rfl

theorem readInputP_solo (L : Lib) (fs : Fs) (pre fmt : Str) (gz : Bool) :
    (readInputP L pre fmt gz).solo fs = (Main.lift (readInput L fs pre fmt gz), fs) := by
  unfold readInputP readInput
  simp only
  split
  · rfl
  · rename_i hf
    split
    · exact loadSpaceP_solo _ _ _
    · rename_i hp
      rw [solo_bind_ok (fileIfExistsP_solo fs _), solo_bind_ok (fileIfExistsP_solo fs _)]
      split
      · rfl
      · rw [buildWithP_solo]
        unfold Space.build
        simp only
        have hm : fmt = fmtDm ∨ fmt = fmtSm := by
          by_contra hc
          rw [not_or] at hc
          exact hf ⟨hc.2, hc.1, hp⟩
        simp only [if_pos hm]

/-! ### The scripts -/

theorem buildSpacesP_does (L : Lib) (fs : Fs) (pre fmt outDir : Str) (outFormat : Option Str)
    (ws ss rs ns : List (Option Str)) (gz : Bool) :
    Acts (buildSpacesP L pre fmt outDir outFormat ws ss rs ns gz) fs
      (Main.lift (buildSpaces L fs pre fmt outDir outFormat ws ss rs ns gz)) := by
  unfold buildSpacesP buildSpaces
  refine Acts.readsPy (readInputP_solo L fs pre fmt gz) (fun space _ => ?_)
  refine forP_does _ _ _ (fun i w fs => Acts.readsPy (solo_ofPy _ _) (fun wSpace _ => ?_))
  refine forP_does _ _ _ (fun j s fs => Acts.readsPy (solo_ofPy _ _) (fun sSpace _ => ?_))
  refine forP_does _ _ _ (fun k r fs => Acts.readsPy (solo_ofPy _ _) (fun rSpace _ => ?_))
  refine forP_does _ _ _ (fun _ n fs => Acts.readsPy (solo_ofPy _ _) (fun nSpace _ => ?_))
  exact printP_does _ _ _ _ _

theorem transformRawP_does (L : Lib) (fs : Fs) (raw : Space Str) (pre outDir : Str) (outFormat : Option Str)
    (coreFile : Str) :
    Acts (transformRawP L raw pre outDir outFormat coreFile) fs
      (Main.lift (transformRaw L raw pre outDir outFormat coreFile fs)) := by
  unfold transformRawP transformRaw
  refine Acts.readsPy (loadSpaceP_solo L fs _) (fun core _ => ?_)
  refine Acts.readsPy (solo_ofPy _ _) (fun p _ => ?_)
  exact printP_does _ _ _ _ _

theorem buildPeriphP_does (L : Lib) (fs : Fs) (pre fmt outDir : Str) (outFormat : Option Str) (coreFile : Str) (gz : Bool) :
    Acts (buildPeriphP L pre fmt outDir outFormat coreFile gz) fs
      (Main.lift (buildPeriph L fs pre fmt outDir outFormat coreFile gz)) :=
  Acts.readsPy (readInputP_solo L fs pre fmt gz) (fun raw _ => transformRawP_does _ _ _ _ _ _ _)

theorem listdirP_solo (order : List Str → List Str) (fs : Fs) (p : Str) :
    (listdirP order p).solo fs = (Main.lift (fs.listdir order p), fs) := by
  unfold listdirP Fs.listdir
  refine (solo_ofPy _ _).trans ?_
  unfold Fs.listdir
  split <;> rfl

theorem buildPeriphBatchP_does (L : Lib) (fs : Fs) (pre fmt outDir : Str) (outFormat : Option Str) (inDir filter : Str)
    (gz : Bool) :
    Acts (buildPeriphBatchP L pre fmt outDir outFormat inDir filter gz) fs
      (Main.lift (buildPeriphBatch L fs pre fmt outDir outFormat inDir filter gz)) := by
  unfold buildPeriphBatchP buildPeriphBatch
  refine Acts.readsPy (readInputP_solo L fs pre fmt gz) (fun raw _ => ?_)
  have hs : ∀ Q : Bool → Prog Unit, (Prog.stat inDir Q).solo fs = (Q (fs.exists_ inDir)).solo fs := fun _ => rfl
  unfold Acts
  rw [hs]
  cases fs.exists_ inDir with
  | false => exact Acts.raise _ _
  | true =>
    exact Acts.readsPy (listdirP_solo _ _ _) (fun names _ => forP_does _ _ _ (fun _ n fs => transformRawP_does _ _ _ _ _ _ _))

theorem write_twice {fs fs2 : Fs} {p t : Str} (h : fs.write p [] = .ok fs2) :
    ∃ g, fs2.write p t = .ok g ∧ fs.write p t = .ok g := by
  obtain ⟨h1, h2⟩ := write_empty_ok h
  unfold Fs.write at h
  split at h
  · cases h
  · rename_i hc
    subst h2
    refine ⟨{ fs with files := fs.files.set (fs.resolve p) t }, ?_, ?_⟩
    · unfold Fs.write
      have hr : Fs.resolve { fs with files := fs.files.set (fs.resolve p) [] } p = fs.resolve p := rfl
      simp only [hr]
      rw [if_neg hc, set_twice]
    · unfold Fs.write
      rw [if_neg hc]

theorem simMeasureP_does (L : Lib) (fs : Fs) (inFile : Str) (c0 c1 : ℤ) (outDir descr : Str) (s : Space Str)
    (space2 : Option (Space Str)) (measure : Str) :
    Acts (simMeasureP L inFile c0 c1 outDir descr s space2 measure) fs
      (Main.lift (simMeasure L inFile c0 c1 outDir descr s space2 measure fs)) := by
  unfold simMeasureP simMeasure
  cases simOf measure with
  | none => exact Acts.ret fs
  | some sim =>
    refine (createParentP_does fs _).bindPy (fun g _ => ?_)
    refine Acts.readsPy (readP_solo g inFile) (fun c _ => ?_)
    generalize outDir ++ ['/'] ++ descr ++ ['.'] ++ measure = out
    have hs : ∀ Q : Py (List Str) → Prog Unit, (Prog.openW out Q).solo g = (Q (g.openCall out).1).solo (g.openCall out).2 :=
      fun _ => rfl
    unfold Acts
    simp only [hs]
    cases hw : g.write out [] with
    | error e =>
      have hc : g.openCall out = (.error e, g) := by unfold Fs.openCall; rw [hw]
      rw [hc]
      exact ⟨fun g hg => (by cases hg), fun e' he' => ⟨g, (by injection he' with he'; subst he'; rfl)⟩⟩
    | ok g0 =>
      have hc : g.openCall out = (.ok (g.resolve out), g0) := by unfold Fs.openCall; rw [hw]
      rw [hc]
      show Acts ((readP inFile).bind _) g0 (Main.lift (g0.read inFile >>= _))
      refine Acts.readsPy (readP_solo g0 inFile) (fun content _ => ?_)
      refine Acts.readsPy (solo_ofPy _ _) (fun txt _ => ?_)
      obtain ⟨g2, e1, e2⟩ := write_twice (t := txt) hw
      rw [e1]
      have := putAll_solo (g.resolve out) txt [] g
      rw [List.nil_append, ← (write_empty_ok hw).2, ← (write_empty_ok e2).2] at this
      refine ⟨fun g' hg' => ?_, fun e he => (by cases he)⟩
      injection hg' with hg'
      subst hg'
      exact this

theorem computeSimP_does (L : Lib) (fs : Fs) (inFile : Str) (columns : List Str) (outDir : Str) (measures files : List Str) :
    Acts (computeSimP L inFile columns outDir measures files) fs
      (Main.lift (computeSim L inFile columns outDir measures files fs)) := by
  unfold computeSimP computeSim
  refine Acts.readsPy (solo_ofPy _ _) (fun c _ => ?_)
  cases files with
  | nil => exact Acts.raise _ _
  | cons f rest =>
    simp only
    have hs : ∀ Q : Py Str → Prog Unit, (Prog.read f Q).solo fs = (Q (fs.read f)).solo fs := fun _ => rfl
    unfold Acts
    rw [hs, loadSpace_eq]
    cases spaceOf L (fs.read f) with
    | error e => cases e <;> first | exact Acts.ret fs | exact Acts.raise _ _
    | ok s =>
      exact Acts.readsPy (loadSecondP_solo L fs _) (fun s2 _ => forP_does _ _ _ (fun _ m fs => simMeasureP_does _ _ _ _ _ _ _ _ _ _))

theorem computeSimBatchP_does (L : Lib) (fs : Fs) (inFile : Str) (columns : List Str) (outDir : Str) (measures : List Str)
    (inDir : Str) :
    Acts (computeSimBatchP L inFile columns outDir measures inDir) fs
      (Main.lift (computeSimBatch L inFile columns outDir measures inDir fs)) := by
  unfold computeSimBatchP computeSimBatch
  have hs : ∀ Q : Bool → Prog Unit, (Prog.stat inDir Q).solo fs = (Q (fs.exists_ inDir)).solo fs := fun _ => rfl
  unfold Acts
  rw [hs]
  cases fs.exists_ inDir with
  | false => exact Acts.raise _ _
  | true =>
    exact Acts.readsPy (listdirP_solo _ _ _) (fun names _ => forP_does _ _ _ (fun _ n fs => computeSimP_does _ _ _ _ _ _ _))

theorem computeNeighboursP_does (L : Lib) (fs : Fs) (inFile : Str) (n : ℤ) (outDir measure : Str) (files : List Str) :
    Acts (computeNeighboursP L inFile n outDir measure files) fs
      (Main.lift (computeNeighbours L inFile n outDir measure files fs)) := by
  unfold computeNeighboursP computeNeighbours
  cases simOf measure with
  | none => exact Acts.raise _ _
  | some sim =>
    cases files with
    | nil => exact Acts.raise _ _
    | cons f rest =>
      simp only
      refine Acts.readsPy (loadSpaceP_solo L fs f) (fun s _ => ?_)
      refine Acts.readsPy (loadSecondP_solo L fs _) (fun space2 _ => ?_)
      refine (createParentP_does fs _).bindPy (fun g _ => ?_)
      refine Acts.readsPy (readP_solo g inFile) (fun content _ => ?_)
      refine Acts.readsPy (solo_ofPy _ _) (fun ws _ => ?_)
      generalize outDir ++ ['/'] ++ joinStr ['.'] [cs!"NEIGHBOURS", lastComp inFile, spacesDescr (f :: rest)] ++ ['.'] ++
        measure = out
      generalize neighboursText L s n sim space2 ws = txt
      have hd := writeP_does g out txt
      have hx : (do
          let fs2 ← g.write out []
          let t ← txt
          fs2.write out t) = g.writeText out txt := by
        unfold Fs.writeText
        cases hw : g.write out [] with
        | error e => rfl
        | ok g0 =>
          rw [ok_bind]
          cases txt with
          | error e => rfl
          | ok t =>
            obtain ⟨g2, e1, e2⟩ := write_twice (t := t) hw
            show g0.write out t = g.write out t
            rw [e1, e2]
      rw [hx]
      exact hd

theorem evaluateSimP_solo (L : Lib) (fs : Fs) (inFile : Str) (columns measures : List Str) :
    (evaluateSimP L inFile columns measures).solo fs = (Main.lift (evaluateSim L fs inFile columns measures), fs) := by
  unfold evaluateSimP evaluateSim
  refine reads_bindPy (solo_ofPy _ _) (fun c _ => ?_)
  refine reads_bindPy (readP_solo _ _) (fun content _ => ?_)
  exact reads_bindPy (solo_ofPy _ _) (fun gp _ => solo_ofPy _ _)

theorem evalLoopP_solo (L : Lib) (fs : Fs) (dir : Str) (columns measures : List Str) : ∀ names : List Str,
    (evalLoopP L dir columns measures names).solo fs = (Main.lift (evalLoop L fs dir columns measures names), fs)
  | [] => rfl
  | f :: names => reads_bindPy (evaluateSimP_solo L fs _ _ _) (fun _ _ =>
      reads_bindPy (evalLoopP_solo L fs dir columns measures names) (fun _ _ => rfl))

theorem evaluateSimBatchP_solo (L : Lib) (fs : Fs) (inDir : Str) (columns measures : List Str) (filter : Str) :
    (evaluateSimBatchP L inDir columns measures filter).solo fs =
      (Main.lift (evaluateSimBatch L fs inDir columns measures filter), fs) := by
  unfold evaluateSimBatchP evaluateSimBatch
  have hs : ∀ Q : Bool → Prog (List (Str × List (Str × ℝ))), (Prog.stat inDir Q).solo fs = (Q (fs.exists_ inDir)).solo fs :=
    fun _ => rfl
  rw [hs]
  cases fs.exists_ inDir with
  | false => rfl
  | true => exact reads_bindPy (listdirP_solo _ _ _) (fun _ _ => evalLoopP_solo _ _ _ _ _ _)

theorem exportModelP_does (L : Lib) (fs : Fs) (m : PyObj) (file : Str) :
    Acts (exportModelP L m file) fs (Main.lift (exportModel L fs m file)) := by
  have hw : ∀ t : Str, Acts ((createParentP file).bind fun _ => writeP file (.ok t)) fs
      (Main.lift (fs.createParentDirectories file >>= fun g => g.write file t)) :=
    fun t => (createParentP_does fs _).bindPy (fun g _ => writeP_does' g _ _)
  have hr : Acts ((createParentP file).bind fun _ => .raise (.raised .illegalStateError)) fs
      (Main.lift (fs.createParentDirectories file >>= fun _ => .error .illegalStateError)) :=
    (createParentP_does fs _).bindPy (fun g _ => Acts.raise _ _)
  cases m with
  | composer c =>
    obtain ⟨k, cols⟩ := c
    cases k with
    | multiplicative => exact Acts.raise _ _
    | weighted a b => exact hw _
    | dilation l => exact hw _
    | fullAdditive a b i l =>
      cases a with
      | none => exact hr
      | some a =>
        cases b with
        | none => exact hr
        | some b => exact hw _
  | lexfun m =>
    refine (createParentP_does fs _).bindPy (fun g _ => ?_)
    cases m.functions with
    | none => exact Acts.raise _ _
    | some s => exact exportP_does _ _ _ _ _ _
  | _ => exact Acts.raise _ _

theorem trainModelP_does (L : Lib) (fs : Fs) (inFile outDir model : Str) (argFiles : List Str) (phraseFile : Str)
    (regression : Option Str) (cv intercept : Bool) (param : ParamVal) (range : Option (List ℝ)) (ex : Bool) :
    Acts (trainModelP L inFile outDir model argFiles phraseFile regression cv intercept param range ex) fs
      (Main.lift (trainModel L fs inFile outDir model argFiles phraseFile regression cv intercept param range ex)) := by
  unfold trainModelP trainModel
  cases argFiles with
  | nil => exact Acts.raise _ _
  | cons f rest =>
    simp only
    refine Acts.readsPy (loadSpaceP_solo L fs f) (fun arg _ => ?_)
    refine Acts.readsPy (loadSecondP_solo L fs _) (fun arg2 _ => ?_)
    refine Acts.readsPy (loadSpaceP_solo L fs _) (fun phrase _ => ?_)
    have hs : ∀ Q : Py Str → Prog Unit, ((readE inFile).bind Q).solo fs = (Q (fs.read inFile)).solo fs := fun _ => rfl
    unfold Acts
    rw [hs]
    refine Acts.readsPy (solo_ofPy _ _) (fun obj _ => ?_)
    refine (saveP_does fs _ _).bindPy (fun g _ => ?_)
    split
    · exact exportModelP_does _ _ _ _
    · exact Acts.ret g

theorem modelObjP_solo (L : Lib) (fs : Fs) (model trained : Option Str) (alpha beta lam : Option ℝ) :
    (modelObjP L model trained alpha beta lam).solo fs = (Main.lift (modelObj L fs model trained alpha beta lam), fs) := by
  cases model with
  | some m => exact solo_ofPy _ _
  | none =>
    cases trained with
    | none => rfl
    | some t =>
      show (Prog.ofPy (modelOf L (fs.read t))).solo fs = (Main.lift (loadModel L fs t), fs)
      rw [loadModel_eq]
      exact solo_ofPy _ _

theorem applyModelP_does (L : Lib) (fs : Fs) (inFile outDir : Str) (model trained : Option Str) (argFiles : List Str)
    (alpha beta lam : Option ℝ) (outFormat : Option Str) :
    Acts (applyModelP L inFile outDir model trained argFiles alpha beta lam outFormat) fs
      (Main.lift (applyModel L fs inFile outDir model trained argFiles alpha beta lam outFormat)) := by
  unfold applyModelP applyModel
  refine Acts.readsPy (modelObjP_solo L fs _ _ _ _ _) (fun m _ => ?_)
  cases argFiles with
  | nil => exact Acts.raise _ _
  | cons f rest =>
    simp only
    refine Acts.readsPy (loadSpaceP_solo L fs f) (fun arg _ => ?_)
    refine Acts.readsPy (loadSecondP_solo L fs _) (fun arg2 _ => ?_)
    refine Acts.readsPy (readP_solo _ _) (fun content _ => ?_)
    refine Acts.readsPy (solo_ofPy _ _) (fun data _ => ?_)
    refine Acts.readsPy (solo_ofPy _ _) (fun s _ => ?_)
    exact printP_does _ _ _ _ _

/-! ### The `main` functions -/

theorem parseArgsP_solo (c : Cli) (parse : Str → Py Config) (fs : Fs) (argv : List Str) :
    (parseArgsP c parse argv).solo fs = (c.parseArgs parse fs argv, fs) := by
  have hi : ∀ rest, (initialP c parse rest).solo fs = (c.initial parse fs rest, fs) := by
    intro rest
    unfold initialP Cli.initial
    match rest with
    | [] => rfl
    | _ :: _ :: _ => rfl
    | [f] =>
      simp only
      have hs : ∀ Q : Py Str → Prog Settings, (Prog.read f Q).solo fs = (Q (fs.read f)).solo fs := fun _ => rfl
      rw [hs]
      cases fs.read f with
      | ok txt =>
        simp only
        cases parse txt <;> rfl
      | error e =>
        simp only
        split <;> rfl
  unfold parseArgsP Cli.parseArgs
  cases getopt c.short c.longs argv with
  | none => rfl
  | some or => exact reads_bind (hi or.2) (fun st _ => solo_ofMain _ _)

theorem mainCoreP_does (L : Lib) (fs : Fs) (argv : List Str) : Acts (mainCoreP L argv) fs (mainCore L fs argv) := by
  unfold mainCoreP mainCore
  refine Acts.reads (parseArgsP_solo _ _ fs argv) (fun st _ => ?_)
  refine (configLoggingP_does fs _).bind (fun g _ => ?_)
  refine Acts.reads (solo_ofMain _ _) (fun pre _ => ?_)
  refine Acts.reads (solo_ofMain _ _) (fun outDir _ => ?_)
  refine Acts.reads (solo_ofMain _ _) (fun fmt _ => ?_)
  refine Acts.reads (solo_ofPy _ _) (fun gz _ => ?_)
  refine Acts.reads (solo_ofMain _ _) (fun gz _ => ?_)
  exact buildSpacesP_does _ _ _ _ _ _ _ _ _ _ _

theorem mainPeriphP_does (L : Lib) (fs : Fs) (argv : List Str) : Acts (mainPeriphP L argv) fs (mainPeriph L fs argv) := by
  unfold mainPeriphP mainPeriph
  refine Acts.reads (parseArgsP_solo _ _ fs argv) (fun st _ => ?_)
  refine (configLoggingP_does fs _).bind (fun g _ => ?_)
  refine Acts.reads (solo_ofMain _ _) (fun pre _ => ?_)
  refine Acts.reads (solo_ofMain _ _) (fun outDir _ => ?_)
  refine Acts.reads (solo_ofMain _ _) (fun fmt _ => ?_)
  refine Acts.reads (solo_ofPy _ _) (fun gz _ => ?_)
  refine Acts.reads (solo_ofMain _ _) (fun gz _ => ?_)
  cases (st cs!"core_in_dir").asStr with
  | some d => exact buildPeriphBatchP_does _ _ _ _ _ _ _ _ _
  | none => exact Acts.reads (solo_ofMain _ _) (fun core _ => buildPeriphP_does _ _ _ _ _ _ _ _)

theorem mainSimsP_does (L : Lib) (fs : Fs) (argv : List Str) : Acts (mainSimsP L argv) fs (mainSims L fs argv) := by
  unfold mainSimsP mainSims
  refine Acts.reads (parseArgsP_solo _ _ fs argv) (fun st _ => ?_)
  refine (configLoggingP_does fs _).bind (fun g _ => ?_)
  refine Acts.reads (solo_ofMain _ _) (fun inFile _ => ?_)
  refine Acts.reads (solo_ofMain _ _) (fun outDir _ => ?_)
  refine Acts.reads (solo_ofMain _ _) (fun measures _ => ?_)
  refine Acts.reads (solo_ofMain _ _) (fun columns _ => ?_)
  cases (st cs!"in_dir").asStr with
  | some d => exact computeSimBatchP_does _ _ _ _ _ _ _
  | none => exact Acts.reads (solo_ofMain _ _) (fun spaces _ => computeSimP_does _ _ _ _ _ _ _)

theorem mainNeighP_does (L : Lib) (fs : Fs) (argv : List Str) : Acts (mainNeighP L argv) fs (mainNeigh L fs argv) := by
  unfold mainNeighP mainNeigh
  refine Acts.reads (parseArgsP_solo _ _ fs argv) (fun st _ => ?_)
  refine (configLoggingP_does fs _).bind (fun g _ => ?_)
  refine Acts.reads (solo_ofPy _ _) (fun n _ => ?_)
  refine Acts.reads (solo_ofMain _ _) (fun inFile _ => ?_)
  refine Acts.reads (solo_ofMain _ _) (fun outDir _ => ?_)
  refine Acts.reads (solo_ofMain _ _) (fun measure _ => ?_)
  refine Acts.reads (solo_ofMain _ _) (fun spaces _ => ?_)
  exact computeNeighboursP_does _ _ _ _ _ _ _

theorem mainTrainP_does (L : Lib) (fs : Fs) (argv : List Str) : Acts (mainTrainP L argv) fs (mainTrain L fs argv) := by
  unfold mainTrainP mainTrain
  refine Acts.reads (parseArgsP_solo _ _ fs argv) (fun st _ => ?_)
  refine (configLoggingP_does fs _).bind (fun g _ => ?_)
  refine Acts.reads (solo_ofMain _ _) (fun inFile _ => ?_)
  refine Acts.reads (solo_ofMain _ _) (fun outDir _ => ?_)
  refine Acts.reads (solo_ofMain _ _) (fun model _ => ?_)
  refine Acts.reads (solo_ofMain _ _) (fun argFiles _ => ?_)
  refine Acts.reads (solo_ofMain _ _) (fun phraseFile _ => ?_)
  refine Acts.reads (solo_ofPy _ _) (fun cv _ => ?_)
  refine Acts.reads (solo_ofPy _ _) (fun ic _ => ?_)
  refine Acts.reads (solo_ofMain _ _) (fun ic _ => ?_)
  refine Acts.reads (solo_ofMain _ _) (fun cv _ => ?_)
  refine Acts.reads (solo_ofPy _ _) (fun ex _ => ?_)
  refine Acts.reads (solo_ofMain _ _) (fun ex _ => ?_)
  refine Acts.reads (solo_ofPy _ _) (fun pr _ => ?_)
  refine Acts.reads (solo_ofMain _ _) (fun _ _ => ?_)
  exact trainModelP_does _ _ _ _ _ _ _ _ _ _ _ _ _

theorem mainApplyP_does (L : Lib) (fs : Fs) (argv : List Str) : Acts (mainApplyP L argv) fs (mainApply L fs argv) := by
  unfold mainApplyP mainApply
  refine Acts.reads (parseArgsP_solo _ _ fs argv) (fun st _ => ?_)
  refine (configLoggingP_does fs _).bind (fun g _ => ?_)
  refine Acts.reads (solo_ofMain _ _) (fun inFile _ => ?_)
  refine Acts.reads (solo_ofMain _ _) (fun outDir _ => ?_)
  refine Acts.reads (solo_ofMain _ _) (fun _ _ => ?_)
  refine Acts.reads (solo_ofMain _ _) (fun argFiles _ => ?_)
  refine Acts.reads (solo_ofPy _ _) (fun alpha _ => ?_)
  refine Acts.reads (solo_ofPy _ _) (fun beta _ => ?_)
  refine Acts.reads (solo_ofPy _ _) (fun lam _ => ?_)
  exact applyModelP_does _ _ _ _ _ _ _ _ _ _ _

/-- `evaluate_similarities.py`: the numbers printed; the disk is that of `config_logging`. -/
theorem mainEvalP_solo (L : Lib) (fs : Fs) (argv : List Str) :
    (∀ r, mainEval L fs argv = .ok r → ∃ st g, cliEval.parseArgs L.parseCfg fs argv = .ok st ∧
      configLogging fs (st cs!"log_file").asStr = .ok g ∧ (mainEvalP L argv).solo fs = (.ok r, g)) ∧
    (∀ e, mainEval L fs argv = .error e → ∃ g, (mainEvalP L argv).solo fs = (.error e, g)) := by
  unfold mainEvalP mainEval
  cases hp : cliEval.parseArgs L.parseCfg fs argv with
  | error e =>
    refine ⟨fun r hr => (by cases hr), fun e' he => ⟨fs, ?_⟩⟩
    · injection he with he
      subst he
      exact solo_bind_error ((parseArgsP_solo _ _ fs argv).trans (by rw [hp]))
  | ok st =>
    rw [solo_bind_ok ((parseArgsP_solo cliEval L.parseCfg fs argv).trans (by rw [hp]))]
    simp only [main_ok_bind]
    have hc := configLoggingP_does fs (st cs!"log_file").asStr
    cases hl : configLogging fs (st cs!"log_file").asStr with
    | error e =>
      rw [hl] at hc
      obtain ⟨g, h⟩ := hc.2 _ rfl
      exact ⟨fun r hr => (by cases hr), fun e' he => ⟨g, (by injection he with he; subst he; exact solo_bind_error h)⟩⟩
    | ok g =>
      rw [hl] at hc
      rw [solo_bind_ok (hc.1 g rfl)]
      have key : ∀ (P : Prog (List (Str × List (Str × ℝ)))) (x : Main (List (Str × List (Str × ℝ)))), P.solo g = (x, g) →
          (∀ r, x = .ok r → ∃ st' g', st = st' ∧ configLogging fs (st' cs!"log_file").asStr = .ok g' ∧
            P.solo g = (.ok r, g')) ∧ (∀ e, x = .error e → ∃ g', P.solo g = (.error e, g')) := by
        intro P x hx
        refine ⟨fun r hr => ⟨st, g, rfl, hl, by rw [hx, hr]⟩, fun e he => ⟨g, by rw [hx, he]⟩⟩
      have := key _ _ (reads_bind (P := Prog.ofMain (require (st cs!"corr_measures").asList))
        (Q := fun measures => (Prog.ofMain (require (st cs!"columns").asList)).bind fun columns =>
          if columns.length ≠ 2 then .raise (.raised .valueError)
          else match (st cs!"in_dir").asStr with
            | some d => evaluateSimBatchP L d columns measures (st cs!"filter_").strD
            | none => (Prog.ofMain (require (st cs!"in_file").asStr)).bind fun inFile =>
              (evaluateSimP L inFile columns measures).bind fun r => .ret [([], r)])
        (y := fun measures => do
          let columns ← require (st cs!"columns").asList
          if columns.length ≠ 2 then .error (.raised .valueError)
          else match (st cs!"in_dir").asStr with
            | some d => Main.lift (evaluateSimBatch L g d columns measures (st cs!"filter_").strD)
            | none => do
              let inFile ← require (st cs!"in_file").asStr
              let r ← Main.lift (evaluateSim L g inFile columns measures)
              return [([], r)])
        (solo_ofMain _ _) (fun measures _ => reads_bind (solo_ofMain _ _) (fun columns _ => by
          split
          · rfl
          · cases (st cs!"in_dir").asStr with
            | some d => exact evaluateSimBatchP_solo _ _ _ _ _ _
            | none =>
              exact reads_bind (solo_ofMain _ _) (fun inFile _ =>
                reads_bind (evaluateSimP_solo _ _ _ _ _) (fun r _ => rfl)))))
      constructor
      · intro r hr
        obtain ⟨st', g', e1, e2, e3⟩ := this.1 r hr
        exact ⟨st', g', by rw [e1], e2, e3⟩
      · exact this.2

end
end Dissect
