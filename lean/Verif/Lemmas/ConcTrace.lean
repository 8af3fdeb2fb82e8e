import Verif.Lemmas.ConcFoot

/-!
# Processes that write the same files, with the same content

A process that does not look at the files that anybody writes does the same things whatever the others do. What it does
to the disk is a list of events; what becomes of a file is a matter of how the lists are interleaved.
-/

namespace Dissect
noncomputable section
open Prog

variable {α β : Type}

/-- What a system call does to the files. -/
inductive Ev
  | look
  | trunc (n : List Str)
  | put (n : List Str) (off : ℕ) (c : Char)

namespace Prog

/-- What the process does, when every question about the disk is answered as on `o`. -/
def events (o : Fs) : Prog α → List Ev
  | ret _ => []
  | raise _ => []
  | stat p k => .look :: events o (k (o.exists_ p))
  | list p k => .look :: events o (k (o.listdir id p))
  | mkdir p k => .look :: events o (k (o.mkdirCall p).1)
  | read p k => .look :: events o (k (o.read p))
  | openW p k => (match (o.openCall p).1 with
      | .ok n => .trunc n
      | .error _ => .look) :: events o (k (o.openCall p).1)
  | put n off c k => .put n off c :: events o k

/-- How the process ends, when every question about the disk is answered as on `o`. -/
def outcome (o : Fs) : Prog α → Main α
  | ret a => .ok a
  | raise e => .error e
  | stat p k => outcome o (k (o.exists_ p))
  | list p k => outcome o (k (o.listdir id p))
  | mkdir p k => outcome o (k (o.mkdirCall p).1)
  | read p k => outcome o (k (o.read p))
  | openW p k => outcome o (k (o.openCall p).1)
  | put _ _ _ k => outcome o k

/-- The process looks only at nodes outside `U`, creates no directory, opens only files in `U`, and writes each of them
from its beginning on, one character after the other, before it opens the next one; `cur` is the file it has open and
the position in it. -/
def Calm (o : Fs) (U : List Str → Prop) : Option (List Str × ℕ) → Prog α → Prop
  | _, ret _ => True
  | _, raise _ => True
  | cur, stat p k => ¬ U (o.resolve p) ∧ Calm o U cur (k (o.exists_ p))
  | cur, list p k => ¬ U (o.resolve p) ∧ (∀ n, n ≠ [] → n.dropLast = o.resolve p → ¬ U n) ∧ Calm o U cur (k (o.listdir id p))
  | _, mkdir _ _ => False
  | cur, read p k => ¬ U (o.resolve p) ∧ Calm o U cur (k (o.read p))
  | _, openW p k => U (o.resolve p) ∧ Calm o U (match (o.openCall p).1 with
      | .ok n => some (n, 0)
      | .error _ => none) (k (o.openCall p).1)
  | cur, put n off _ k => cur = some (n, off) ∧ Calm o U (some (n, off + 1)) k

theorem Calm.any {o : Fs} {U : List Str → Prop} {P : Prog α} : ∀ {cur : Option (List Str × ℕ)}, Calm o U none P →
    Calm o U cur P := by
  induction P with
  | ret a => exact fun _ => trivial
  | raise e => exact fun _ => trivial
  | stat p k ih => exact fun h => ⟨h.1, ih _ h.2⟩
  | list p k ih => exact fun h => ⟨h.1, h.2.1, ih _ h.2.2⟩
  | mkdir p k ih => exact fun h => h
  | read p k ih => exact fun h => ⟨h.1, ih _ h.2⟩
  | openW p k ih => exact fun h => h
  | put n off c k ih => exact fun h => by cases h.1

theorem Calm.bind {o : Fs} {U : List Str → Prop} {Q : α → Prog β} (hQ : ∀ a, Calm o U none (Q a)) {P : Prog α} :
    ∀ {cur : Option (List Str × ℕ)}, Calm o U cur P → Calm o U cur (P.bind Q) := by
  induction P with
  | ret a => exact fun _ => (hQ a).any
  | raise e => exact fun _ => trivial
  | stat p k ih => exact fun h => ⟨h.1, ih _ h.2⟩
  | list p k ih => exact fun h => ⟨h.1, h.2.1, ih _ h.2.2⟩
  | mkdir p k ih => exact fun h => h
  | read p k ih => exact fun h => ⟨h.1, ih _ h.2⟩
  | openW p k ih => exact fun h => ⟨h.1, ih _ h.2⟩
  | put n off c k ih => exact fun h => ⟨h.1, ih h.2⟩

/-- As `Calm.bind`, knowing how the first part ends. -/
theorem Calm.bindO {o : Fs} {U : List Str → Prop} {Q : α → Prog β} {P : Prog α}
    (hQ : ∀ a, outcome o P = .ok a → Calm o U none (Q a)) :
    ∀ {cur : Option (List Str × ℕ)}, Calm o U cur P → Calm o U cur (P.bind Q) := by
  induction P with
  | ret a => exact fun _ => (hQ a rfl).any
  | raise e => exact fun _ => trivial
  | stat p k ih => exact fun h => ⟨h.1, ih _ hQ h.2⟩
  | list p k ih => exact fun h => ⟨h.1, h.2.1, ih _ hQ h.2.2⟩
  | mkdir p k ih => exact fun h => h
  | read p k ih => exact fun h => ⟨h.1, ih _ hQ h.2⟩
  | openW p k ih => exact fun h => ⟨h.1, ih _ hQ h.2⟩
  | put n off c k ih => exact fun h => ⟨h.1, ih hQ h.2⟩

end Prog

/-! ### The files -/

/-- The content of file `n` after an event. -/
def Ev.act (n : List Str) : Ev → Option Str → Option Str
  | .look, c => c
  | .trunc m, c => if m = n then some [] else c
  | .put m off x, c => if m = n then some (writeAt (c.getD []) off x) else c

/-- The content of file `n` after some events. -/
def actAll (n : List Str) (es : List Ev) (c : Option Str) : Option Str := es.foldl (fun c e => e.act n c) c

/-- The position in the file that is open after the event. -/
def Ev.next : Ev → Option (List Str × ℕ) → Option (List Str × ℕ)
  | .look, cur => cur
  | .trunc n, _ => some (n, 0)
  | .put n off _, _ => some (n, off + 1)

/-- Characters are written to the file opened last, one after the other. -/
def InOrder : Option (List Str × ℕ) → List Ev → Prop
  | _, [] => True
  | cur, e :: es => (∀ n off c, e = .put n off c → cur = some (n, off)) ∧ InOrder (e.next cur) es

/-- The file is opened. -/
def Opens (n : List Str) (es : List Ev) : Prop := Ev.trunc n ∈ es

/-- The characters written to file `n`. -/
def putsTo (n : List Str) : List Ev → Str
  | [] => []
  | .put m _ c :: es => if m = n then c :: putsTo n es else putsTo n es
  | _ :: es => putsTo n es

theorem writeAt_len {s : Str} {off : ℕ} (x : Char) : (writeAt s off x).length = max s.length (off + 1) := by
  unfold writeAt
  simp only [List.length_append, List.length_take, List.length_replicate, List.length_cons, List.length_drop]
  omega

theorem writeAt_end' (s : Str) (x : Char) : writeAt s s.length x = s ++ [x] := by
  unfold writeAt
  simp

/-- What was right up to some position stays right when a right character is written. -/
theorem writeAt_keeps {s t : Str} {off m : ℕ} {x : Char} (hx : t[off]? = some x) (hm : m ≤ s.length)
    (h : s.take m = t.take m) : (writeAt s off x).take m = t.take m := by
  apply List.ext_getElem?
  intro k
  have hk : (s.take m)[k]? = (t.take m)[k]? := by rw [h]
  rw [List.getElem?_take, List.getElem?_take] at hk ⊢
  split
  · rename_i hlt
    rw [if_pos hlt, if_pos hlt] at hk
    unfold writeAt
    by_cases h1 : k < off
    · rw [List.append_assoc, List.getElem?_append_left (by simp; omega), List.getElem?_take, if_pos h1, hk]
    · have hz : off - s.length = 0 ∨ s.length < off := by omega
      have hoff : off ≤ s.length := by omega
      rw [Nat.sub_eq_zero_of_le hoff, List.replicate_zero, List.append_nil, List.getElem?_append_right (by simp; omega)]
      rw [List.length_take, Nat.min_eq_left hoff]
      by_cases h2 : k = off
      · subst h2; simp [hx]
      · obtain ⟨d, rfl⟩ : ∃ d, k = off + 1 + d := ⟨k - off - 1, by omega⟩
        rw [show off + 1 + d - off = d + 1 by omega, List.getElem?_cons_succ, List.getElem?_drop, hk]
  · rfl

theorem writeAt_extends {s t : Str} {off : ℕ} {x : Char} (hx : t[off]? = some x) (hm : off ≤ s.length)
    (h : s.take off = t.take off) : (writeAt s off x).take (off + 1) = t.take (off + 1) := by
  unfold writeAt
  rw [Nat.sub_eq_zero_of_le hm, List.replicate_zero, List.append_nil, h]
  have hlt : off < t.length := by
    by_contra hc
    rw [List.getElem?_eq_none (by omega)] at hx
    cases hx
  have hl : (t.take off).length = off := by simp; omega
  rw [List.take_append, hl, show off + 1 - off = 1 by omega, List.take_of_length_le (by omega), List.take_add_one (l := t), hx]
  rfl

theorem actAll_cons (n : List Str) (e : Ev) (es : List Ev) (c : Option Str) :
    actAll n (e :: es) c = actAll n es (e.act n c) := rfl

theorem actAll_opens {n : List Str} {es : List Ev} (h : Opens n es) (c c' : Option Str) : actAll n es c = actAll n es c' := by
  induction es generalizing c c' with
  | nil => cases h
  | cons e es ih =>
    rw [actAll_cons, actAll_cons]
    by_cases he : Opens n es
    · exact ih he _ _
    · have : e = .trunc n := by
        rcases List.mem_cons.1 h with h | h
        · exact h.symm
        · exact absurd h he
      subst this
      show actAll n es (if n = n then _ else _) = actAll n es (if n = n then _ else _)
      rw [if_pos rfl, if_pos rfl]

/-- A file that is not opened is not written to, unless it is open already. -/
theorem putsTo_not_open {n : List Str} {es : List Ev} : ∀ {cur : Option (List Str × ℕ)}, InOrder cur es → ¬ Opens n es →
    (∀ off, cur ≠ some (n, off)) → putsTo n es = [] := by
  induction es with
  | nil => exact fun _ _ _ => rfl
  | cons e es ih =>
    intro cur h hno hc
    have hno' : ¬ Opens n es := fun h => hno (List.mem_cons_of_mem _ h)
    cases e with
    | look => exact ih h.2 hno' hc
    | trunc m =>
      refine ih h.2 hno' (fun off e => ?_)
      have e : some (m, 0) = some (n, off) := e
      injection e with e
      injection e with e _
      subst e
      exact hno (List.mem_cons_self)
    | put m off c =>
      have h1 := h.1 m off c rfl
      have hne : m ≠ n := fun e => hc off (by rw [h1, e])
      show (if m = n then _ else _) = _
      rw [if_neg hne]
      refine ih h.2 hno' (fun o e => ?_)
      have e : some (m, off + 1) = some (n, o) := e
      injection e with e
      injection e with e _
      exact hne e

theorem actAll_untouched {n : List Str} : ∀ {es : List Ev} {cur : Option (List Str × ℕ)}, InOrder cur es → ¬ Opens n es →
    (∀ off, cur ≠ some (n, off)) → ∀ c, actAll n es c = c := by
  intro es
  induction es with
  | nil => exact fun _ _ _ _ => rfl
  | cons e es ih =>
    intro cur h hno hc c
    have hno' : ¬ Opens n es := fun h => hno (List.mem_cons_of_mem _ h)
    rw [actAll_cons]
    cases e with
    | look => exact ih h.2 hno' hc c
    | trunc m =>
      have hne : m ≠ n := fun e => hno (e ▸ List.mem_cons_self)
      show actAll n es (if m = n then _ else _) = _
      rw [if_neg hne]
      exact ih h.2 hno' (fun o e => by
        have e : some (m, 0) = some (n, o) := e
        injection e with e
        injection e with e _
        exact hne e) c
    | put m off x =>
      have h1 := h.1 m off x rfl
      have hne : m ≠ n := fun e => hc off (by rw [h1, e])
      show actAll n es (if m = n then _ else _) = _
      rw [if_neg hne]
      exact ih h.2 hno' (fun o e => by
        have e : some (m, off + 1) = some (n, o) := e
        injection e with e
        injection e with e _
        exact hne e) c

/-- The content of a file that is written to its end. -/
theorem actAll_puts {n : List Str} {es : List Ev} : ∀ {off : ℕ} {c : Str}, InOrder (some (n, off)) es → ¬ Opens n es →
    c.length = off → actAll n es (some c) = some (c ++ putsTo n es) := by
  induction es with
  | nil => intro off c _ _ _; simp [actAll, putsTo]
  | cons e es ih =>
    intro off c h hno hl
    have hno' : ¬ Opens n es := fun h => hno (List.mem_cons_of_mem _ h)
    rw [actAll_cons]
    cases e with
    | look => exact ih h.2 hno' hl
    | trunc m =>
      have hne : m ≠ n := fun e => hno (e ▸ List.mem_cons_self)
      have hp : putsTo n es = [] := putsTo_not_open h.2 hno' (fun o e => by
        have e : some (m, 0) = some (n, o) := e
        injection e with e
        injection e with e _
        exact hne e)
      show actAll n es (if m = n then _ else _) = some (c ++ putsTo n es)
      rw [if_neg hne, hp, List.append_nil]
      exact actAll_untouched h.2 hno' (fun o e => by
        have e : some (m, 0) = some (n, o) := e
        injection e with e
        injection e with e _
        exact hne e) _
    | put m o x =>
      have h1 := h.1 m o x rfl
      injection h1 with h1
      injection h1 with h1 h2
      subst h1; subst h2
      show actAll n es (if n = n then _ else _) = some (c ++ (if n = n then _ else _))
      rw [if_pos rfl, if_pos rfl]
      show actAll n es (some (writeAt c off x)) = _
      rw [← hl, writeAt_end']
      have := ih (off := off + 1) (c := c ++ [x]) h.2 hno' (by simp [hl])
      rw [this]
      simp


/-! ### Interleaving -/

/-- How far the file has been written by a process that no longer opens it. -/
def posOf (n : List Str) (txt : Str) : Option (List Str × ℕ) → ℕ
  | some (m, off) => if m = n then off else txt.length
  | none => txt.length

/-- The state of a file that some processes write, all of them with the content `txt`: `E` are the events to come, `cur`
are the open files, `c` is the content. -/
structure NodeOk {ι : Type} (n : List Str) (txt : Str) (E : ι → List Ev) (cur : ι → Option (List Str × ℕ)) (c : Option Str) :
    Prop where
  order : ∀ i, InOrder (cur i) (E i)
  again : ∀ i, Opens n (E i) → actAll n (E i) none = some txt
  open_ : ∀ i off, cur i = some (n, off) → ¬ Opens n (E i) → off ≤ txt.length ∧ putsTo n (E i) = txt.drop off
  owner : (∀ i, ¬ Opens n (E i)) → ∃ t, c = some t ∧ t.length ≤ txt.length ∧
    ∃ i, posOf n txt (cur i) ≤ t.length ∧ t.take (posOf n txt (cur i)) = txt.take (posOf n txt (cur i))

theorem NodeOk.step {ι : Type} [DecidableEq ι] {n : List Str} {txt : Str} {E : ι → List Ev} {cur : ι → Option (List Str × ℕ)}
    {c : Option Str} (h : NodeOk n txt E cur c) {i : ι} {e : Ev} {es : List Ev} (hE : E i = e :: es) :
    NodeOk n txt (Function.update E i es) (Function.update cur i (e.next (cur i))) (e.act n c) := by
  have ho := h.order i
  rw [hE] at ho
  have opens_tail : Opens n es → Opens n (E i) := fun h => by rw [hE]; exact List.mem_cons_of_mem _ h
  have opens_head : e ≠ .trunc n → ¬ Opens n es → ¬ Opens n (E i) := by
    intro h1 h2 h3
    rw [hE] at h3
    rcases List.mem_cons.1 h3 with h3 | h3
    · exact h1 h3.symm
    · exact h2 h3
  refine ⟨?_, ?_, ?_, ?_⟩
  · intro j
    by_cases hj : j = i
    · subst hj; rw [Function.update_self, Function.update_self]; exact ho.2
    · rw [Function.update_of_ne hj, Function.update_of_ne hj]; exact h.order j
  · intro j hop
    by_cases hj : j = i
    · subst hj
      rw [Function.update_self] at hop ⊢
      have := h.again j (opens_tail hop)
      rw [hE, actAll_cons] at this
      rw [← this]
      exact actAll_opens hop _ _
    · rw [Function.update_of_ne hj] at hop ⊢
      exact h.again j hop
  · intro j off hcur hno
    by_cases hj : j = i
    · subst hj
      rw [Function.update_self] at hcur hno ⊢
      cases e with
      | look =>
        have := h.open_ j off hcur (opens_head (by simp) hno)
        rw [hE] at this
        exact this
      | trunc m =>
        have hc : some (m, 0) = some (n, off) := hcur
        injection hc with hc
        injection hc with h1 h2
        subst h1; subst h2
        have := h.again j (by rw [hE]; exact List.mem_cons_self)
        rw [hE, actAll_cons] at this
        replace this : actAll m es (if m = m then some [] else none) = _ := this
        rw [if_pos rfl, actAll_puts (off := 0) ho.2 hno rfl] at this
        injection this with this
        exact ⟨Nat.zero_le _, by simpa using this⟩
      | put m o x =>
        have hc : some (m, o + 1) = some (n, off) := hcur
        injection hc with hc
        injection hc with h1 h2
        subst h1; subst h2
        have h1 := ho.1 m o x rfl
        obtain ⟨h2, h3⟩ := h.open_ j o h1 (opens_head (by simp) hno)
        rw [hE] at h3
        replace h3 : (if m = m then x :: putsTo m es else putsTo m es) = _ := h3
        rw [if_pos rfl] at h3
        have hlt : o < txt.length := by
          by_contra hc
          rw [List.drop_eq_nil_of_le (by omega)] at h3
          cases h3
        rw [List.drop_eq_getElem_cons hlt] at h3
        injection h3 with _ h3
        exact ⟨hlt, h3⟩
    · rw [Function.update_of_ne hj] at hcur hno ⊢
      exact h.open_ j off hcur hno
  · intro hno
    have hnoi : ¬ Opens n es := by have := hno i; rwa [Function.update_self] at this
    by_cases he : e = .trunc n
    · subst he
      refine ⟨[], ?_, Nat.zero_le _, i, ?_⟩
      · show (if n = n then _ else _) = _
        rw [if_pos rfl]
      · rw [Function.update_self]
        show (if n = n then 0 else _) ≤ _ ∧ List.take (if n = n then 0 else _) _ = List.take (if n = n then 0 else _) _
        rw [if_pos rfl]
        exact ⟨Nat.zero_le _, rfl⟩
    · have hno' : ∀ j, ¬ Opens n (E j) := by
        intro j
        by_cases hj : j = i
        · subst hj; exact opens_head he hnoi
        · have := hno j; rwa [Function.update_of_ne hj] at this
      obtain ⟨t, hc, hl, w, hw1, hw2⟩ := h.owner hno'
      cases e with
      | look =>
        refine ⟨t, hc, hl, w, ?_⟩
        by_cases hj : w = i
        · subst hj; rw [Function.update_self]; exact ⟨hw1, hw2⟩
        · rw [Function.update_of_ne hj]; exact ⟨hw1, hw2⟩
      | trunc m =>
        have hne : m ≠ n := fun e => he (by rw [e])
        refine ⟨t, ?_, hl, w, ?_⟩
        · show (if m = n then _ else _) = _
          rw [if_neg hne]; exact hc
        · by_cases hj : w = i
          · subst hj
            rw [Function.update_self]
            have hfull : posOf n txt (cur w) = txt.length := by
              rcases hcw : cur w with _ | ⟨m', off⟩
              · rfl
              · show (if m' = n then off else _) = _
                split
                · rename_i hm
                  subst hm
                  obtain ⟨a1, a2⟩ := h.open_ w off hcw (hno' w)
                  rw [hE] at a2
                  replace a2 : putsTo m' es = _ := a2
                  rw [putsTo_not_open ho.2 hnoi (fun o e => by
                    have e : some (m, 0) = some (m', o) := e
                    injection e with e
                    injection e with e _
                    exact hne e)] at a2
                  have := List.drop_eq_nil_iff.1 a2.symm
                  omega
                · rfl
            show (if m = n then 0 else txt.length) ≤ _ ∧ List.take (if m = n then 0 else txt.length) _ =
              List.take (if m = n then 0 else txt.length) _
            rw [if_neg hne, ← hfull]
            exact ⟨hw1, hw2⟩
          · rw [Function.update_of_ne hj]; exact ⟨hw1, hw2⟩
      | put m o x =>
        have hci := ho.1 m o x rfl
        by_cases hne : m = n
        · subst hne
          obtain ⟨h2, h3⟩ := h.open_ i o hci (hno' i)
          rw [hE] at h3
          replace h3 : (if m = m then x :: putsTo m es else putsTo m es) = _ := h3
          rw [if_pos rfl] at h3
          have hlt : o < txt.length := by
            by_contra hc
            rw [List.drop_eq_nil_of_le (by omega)] at h3
            cases h3
          have hx : txt[o]? = some x := by
            rw [List.drop_eq_getElem_cons hlt] at h3
            injection h3 with h3 _
            rw [List.getElem?_eq_getElem hlt, h3]
          refine ⟨writeAt t o x, ?_, ?_, w, ?_⟩
          · show (if m = m then some (writeAt (c.getD []) o x) else c) = _
            rw [if_pos rfl, hc]
            rfl
          · rw [writeAt_len]; omega
          · by_cases hj : w = i
            · subst hj
              rw [hci] at hw1 hw2
              replace hw1 : (if m = m then o else txt.length) ≤ t.length := hw1
              replace hw2 : List.take (if m = m then o else txt.length) t = List.take (if m = m then o else txt.length) txt := hw2
              rw [if_pos rfl] at hw1 hw2
              rw [Function.update_self]
              show (if m = m then o + 1 else txt.length) ≤ _ ∧ List.take (if m = m then o + 1 else txt.length) _ =
                List.take (if m = m then o + 1 else txt.length) _
              rw [if_pos rfl]
              exact ⟨by rw [writeAt_len]; omega, writeAt_extends hx hw1 hw2⟩
            · rw [Function.update_of_ne hj]
              exact ⟨by rw [writeAt_len]; omega, writeAt_keeps hx hw1 hw2⟩
        · refine ⟨t, ?_, hl, w, ?_⟩
          · show (if m = n then _ else _) = _
            rw [if_neg hne]; exact hc
          · by_cases hj : w = i
            · subst hj
              rw [hci] at hw1 hw2
              replace hw1 : (if m = n then o else txt.length) ≤ t.length := hw1
              replace hw2 : List.take (if m = n then o else txt.length) t = List.take (if m = n then o else txt.length) txt := hw2
              rw [if_neg hne] at hw1 hw2
              rw [Function.update_self]
              show (if m = n then o + 1 else txt.length) ≤ _ ∧ List.take (if m = n then o + 1 else txt.length) _ =
                List.take (if m = n then o + 1 else txt.length) _
              rw [if_neg hne]
              exact ⟨hw1, hw2⟩
            · rw [Function.update_of_ne hj]; exact ⟨hw1, hw2⟩

/-- Once all the processes that write the file have done so, it has the content. -/
theorem NodeOk.done {ι : Type} {n : List Str} {txt : Str} {E : ι → List Ev} {cur : ι → Option (List Str × ℕ)} {c : Option Str}
    (h : NodeOk n txt E cur c) (h1 : ∀ i, ¬ Opens n (E i)) (h2 : ∀ i off, cur i = some (n, off) → E i = []) : c = some txt := by
  obtain ⟨t, hc, hl, w, hw1, hw2⟩ := h.owner h1
  have hfull : posOf n txt (cur w) = txt.length := by
    rcases hcw : cur w with _ | ⟨m', off⟩
    · rfl
    · show (if m' = n then off else _) = _
      split
      · rename_i hm
        subst hm
        obtain ⟨a1, a2⟩ := h.open_ w off hcw (h1 w)
        rw [h2 w off hcw] at a2
        have := List.drop_eq_nil_iff.1 (show txt.drop off = [] from a2.symm)
        omega
      · rfl
  rw [hfull] at hw1 hw2
  rw [hc, List.take_of_length_le hl, List.take_of_length_le le_rfl] at *
  rw [hw2]

/-! ### Processes -/

theorem openCall_same {a b : Fs} (hc : a.cwd = b.cwd) (hd : a.dirs = b.dirs) (p : Str) :
    (a.openCall p).1 = (b.openCall p).1 ∧ a.resolve p = b.resolve p := by
  have hr : a.resolve p = b.resolve p := by unfold Fs.resolve; rw [hc]
  refine ⟨?_, hr⟩
  unfold Fs.openCall Fs.write
  rw [hd, hr]
  by_cases h : p = [] ∨ p.getLast? = some '/' ∨ b.resolve p ∈ b.dirs ∨ (b.resolve p).dropLast ∉ b.dirs
  · rw [if_pos h, if_pos h]
  · rw [if_neg h, if_neg h]

theorem Prog.Calm.inOrder {o : Fs} {U : List Str → Prop} {P : Prog α} : ∀ {cur : Option (List Str × ℕ)}, Calm o U cur P →
    InOrder cur (events o P) := by
  induction P with
  | ret a => exact fun _ => trivial
  | raise e => exact fun _ => trivial
  | stat p k ih => exact fun h => ⟨fun _ _ _ e => (by cases e), ih _ h.2⟩
  | list p k ih => exact fun h => ⟨fun _ _ _ e => (by cases e), ih _ h.2.2⟩
  | mkdir p k ih => exact fun h => h.elim
  | read p k ih => exact fun h => ⟨fun _ _ _ e => (by cases e), ih _ h.2⟩
  | openW p k ih =>
    intro cur h
    have h2 := h.2
    unfold events
    cases ho : (o.openCall p).1 with
    | ok n =>
      rw [ho] at h2
      exact ⟨fun _ _ _ e => (by cases e), by have := ih _ h2; exact this⟩
    | error e =>
      rw [ho] at h2
      exact ⟨fun _ _ _ e => (by cases e), ih _ (Calm.any h2)⟩
  | put n off c k ih =>
    intro cur h
    refine ⟨fun n' off' c' e => ?_, ih h.2⟩
    injection e with e1 e2 e3
    rw [h.1, e1, e2]


theorem openCall_disk (a : Fs) (p : Str) : (∃ e, a.openCall p = (.error e, a)) ∨
    a.openCall p = (.ok (a.resolve p), { a with files := a.files.set (a.resolve p) [] }) := by
  unfold Fs.openCall Fs.write
  split <;> rename_i h <;> split at h
  · cases h
  · injection h with h; subst h; exact Or.inr rfl
  · exact Or.inl ⟨_, rfl⟩
  · cases h

/-- The disk is as on `o`, apart from the contents of the files in `U`. -/
structure NearBy (U : List Str → Prop) (o g : Fs) : Prop where
  agree : Agree (fun n => ¬ U n) g o
  dirs : g.dirs = o.dirs

theorem NearBy.refl (U : List Str → Prop) (o : Fs) : NearBy U o o := ⟨Agree.refl _ _, rfl⟩

theorem NearBy.set {U : List Str → Prop} {o g : Fs} (h : NearBy U o g) {n : List Str} (hn : U n) (v : Str) :
    NearBy U o { g with files := g.files.set n v } :=
  ⟨(Agree.setOutside n v (fun h => h hn)).trans h.agree, h.dirs⟩

/-- One system call of a calm process: one event. -/
theorem calm_step {o g : Fs} {U : List Str → Prop} {cur : Option (List Str × ℕ)} {P : Prog α} (hn : NearBy U o g)
    (hcur : ∀ n off, cur = some (n, off) → U n) (h : Calm o U cur P) (hd : ¬ P.Done) :
    ∃ e es, events o P = e :: es ∧ events o (P.step g).1 = es ∧ outcome o (P.step g).1 = outcome o P ∧
      Calm o U (e.next cur) (P.step g).1 ∧ NearBy U o (P.step g).2 ∧
      (∀ n, (P.step g).2.files.get? n = e.act n (g.files.get? n)) ∧
      (∀ n off, e.next cur = some (n, off) → U n) ∧
      (∀ n off, e.next cur = some (n, off) → cur = some (n, off) ∨ Opens n (events o P) ∨ ∃ off', cur = some (n, off')) := by
  cases P with
  | ret a => exact absurd trivial hd
  | raise e => exact absurd trivial hd
  | stat p k =>
    have e := hn.agree.exists_ (p := p) h.1
    refine ⟨.look, _, rfl, ?_, ?_, ?_, hn, fun _ => rfl, hcur, fun _ _ h => Or.inl h⟩
    · show events o (k (g.exists_ p)) = _; rw [e]
    · show outcome o (k (g.exists_ p)) = _; rw [e]; rfl
    · show Calm o U cur (k (g.exists_ p)); rw [e]; exact h.2
  | list p k =>
    have e := hn.agree.listdir (p := p) h.1 h.2.1
    refine ⟨.look, _, rfl, ?_, ?_, ?_, hn, fun _ => rfl, hcur, fun _ _ h => Or.inl h⟩
    · show events o (k (g.listdir id p)) = _; rw [e]
    · show outcome o (k (g.listdir id p)) = _; rw [e]; rfl
    · show Calm o U cur (k (g.listdir id p)); rw [e]; exact h.2.2
  | mkdir p k => exact h.elim
  | read p k =>
    have e := hn.agree.read (p := p) h.1
    refine ⟨.look, _, rfl, ?_, ?_, ?_, hn, fun _ => rfl, hcur, fun _ _ h => Or.inl h⟩
    · show events o (k (g.read p)) = _; rw [e]
    · show outcome o (k (g.read p)) = _; rw [e]; rfl
    · show Calm o U cur (k (g.read p)); rw [e]; exact h.2
  | openW p k =>
    obtain ⟨e1, e2⟩ := openCall_same hn.agree.cwd hn.dirs p
    have h2 := h.2
    have hev : events o (.openW p k) = (match (o.openCall p).1 with
      | .ok n => Ev.trunc n
      | .error _ => .look) :: events o (k (o.openCall p).1) := rfl
    have hst : ((Prog.openW p k).step g).1 = k (o.openCall p).1 := by show k (g.openCall p).1 = _; rw [e1]
    rw [hst, hev]
    rcases openCall_disk g p with ⟨er, hg⟩ | hg
    · have ho : (o.openCall p).1 = .error er := by rw [← e1, hg]
      have hdisk : ((Prog.openW p k).step g).2 = g := by show (g.openCall p).2 = _; rw [hg]
      rw [hdisk]
      rw [ho] at h2 ⊢
      refine ⟨.look, _, rfl, rfl, ?_, Calm.any h2, hn, fun _ => rfl, hcur, fun _ _ h => Or.inl h⟩
      show _ = outcome o (k (o.openCall p).1)
      rw [ho]
    · have ho : (o.openCall p).1 = .ok (o.resolve p) := by rw [← e1, hg, e2]
      have hdisk : ((Prog.openW p k).step g).2 = { g with files := g.files.set (o.resolve p) [] } := by
        show (g.openCall p).2 = _; rw [hg, e2]
      rw [hdisk]
      rw [ho] at h2 ⊢
      refine ⟨.trunc (o.resolve p), _, rfl, rfl, ?_, h2, hn.set h.1 _, ?_, ?_, ?_⟩
      · show _ = outcome o (k (o.openCall p).1)
        rw [ho]
      · intro n
        show (g.files.set (o.resolve p) []).get? n = if o.resolve p = n then _ else _
        rw [Dict.get?_set]
        by_cases hx : o.resolve p = n
        · rw [if_pos hx, if_pos (by first | exact hx | exact hx.symm)]
        · rw [if_neg hx, if_neg (by first | exact hx | exact fun e => hx e.symm)]
      · intro n off e
        have e : some (o.resolve p, 0) = some (n, off) := e
        injection e with e
        injection e with e _
        rw [← e]; exact h.1
      · intro n off e
        have e : some (o.resolve p, 0) = some (n, off) := e
        injection e with e
        injection e with e _
        right; left
        rw [← e]; exact List.mem_cons_self
  | put m off c k =>
    refine ⟨.put m off c, _, rfl, rfl, rfl, h.2, hn.set (hcur m off h.1) _, ?_, ?_, ?_⟩
    · intro n
      show (g.files.set m (writeAt ((g.files.get? m).getD []) off c)).get? n = if m = n then _ else _
      rw [Dict.get?_set]
      by_cases hx : m = n
      · subst hx; rw [if_pos rfl]
      · rw [if_neg hx, if_neg (by first | exact hx | exact fun e => hx e.symm)]
    · intro n o' e
      have e : some (m, off + 1) = some (n, o') := e
      injection e with e
      injection e with e _
      rw [← e]; exact hcur m off h.1
    · intro n o' e
      have e : some (m, off + 1) = some (n, o') := e
      injection e with e
      injection e with e _
      right; right
      exact ⟨off, by rw [h.1, e]⟩

theorem events_done {o : Fs} {P : Prog α} (h : P.Done) : events o P = [] := by
  cases P <;> first | rfl | exact h.elim

theorem done_events {o : Fs} {P : Prog α} (h : events o P = []) : P.Done := by
  cases P <;> trivial

theorem done_outcome {o : Fs} {P : Prog α} (h : P.Done) : P = ofMain (outcome o P) := by
  cases P <;> first | rfl | exact h.elim

/-- A calm process that runs alone. -/
theorem calm_solo {o : Fs} {U : List Str → Prop} : ∀ (k : ℕ) {P : Prog α} {cur : Option (List Str × ℕ)} {g : Fs},
    (events o P).length = k → NearBy U o g → (∀ n off, cur = some (n, off) → U n) → Calm o U cur P →
    (P.solo g).1 = outcome o P ∧ NearBy U o (P.solo g).2 ∧ P.steps g = k ∧
      ∀ n, (P.solo g).2.files.get? n = actAll n (events o P) (g.files.get? n) := by
  intro k
  induction k with
  | zero =>
    intro P cur g hk hn _ _
    have hd := done_events (List.length_eq_zero_iff.1 hk)
    rw [events_done (o := o) hd]
    obtain ⟨h1, h2⟩ := done_eq hd g
    refine ⟨?_, ?_, steps_done hd g, ?_⟩
    · cases P <;> first | rfl | exact hd.elim
    · rw [h2]; exact hn
    · intro n; rw [h2]; rfl
  | succ k ih =>
    intro P cur g hk hn hcur h
    have hd : ¬ P.Done := fun hd => by rw [events_done (o := o) hd] at hk; cases hk
    obtain ⟨e, es, h1, h2, h3, h4, h5, h6, h7, _⟩ := calm_step hn hcur h hd
    rw [h1] at hk
    obtain ⟨a1, a2, a3, a4⟩ := ih (P := (P.step g).1) (by rw [h2]; simpa using hk) h5 h7 h4
    rw [solo_step] at a1 a2 a4
    rw [steps_step] at a3
    refine ⟨a1.trans h3, a2, ?_, ?_⟩
    · have : P.steps g ≠ 0 := fun e => hd (steps_zero e)
      omega
    · intro n
      rw [a4, h2, h6, h1, actAll_cons]

/-! ### Several calm processes -/

variable {ι : Type} [DecidableEq ι]

/-- The state of a system of calm processes. -/
structure Shared (U : List Str → Prop) (s0 s : Sys ι α) (cur : ι → Option (List Str × ℕ)) : Prop where
  cwd : s.cwd = s0.cwd
  near : ∀ i, NearBy U (s0.view i) (s.view i)
  pos : ∀ i n off, cur i = some (n, off) → U n ∧ Opens n (events (s0.view i) (s0.prog i))
  calm : ∀ i, Calm (s0.view i) U (cur i) (s.prog i)
  result : ∀ i, Prog.outcome (s0.view i) (s.prog i) = Prog.outcome (s0.view i) (s0.prog i)
  opens : ∀ i n, Opens n (events (s0.view i) (s.prog i)) → Opens n (events (s0.view i) (s0.prog i))
  other : ∀ n, (∀ i, ¬ Opens n (events (s0.view i) (s0.prog i))) → s.files.get? n = s0.files.get? n
  node : ∀ n txt, (∃ i, Opens n (events (s0.view i) (s0.prog i))) →
    (∀ i, Opens n (events (s0.view i) (s0.prog i)) → actAll n (events (s0.view i) (s0.prog i)) none = some txt) →
    NodeOk n txt (fun i => events (s0.view i) (s.prog i)) cur (s.files.get? n)

omit [DecidableEq ι] in
theorem Shared.start {U : List Str → Prop} {s : Sys ι α} (h : ∀ i, Calm (s.view i) U none (s.prog i)) :
    Shared U s s (fun _ => none) := by
  refine ⟨rfl, fun i => NearBy.refl _ _, fun _ _ _ e => (by cases e), h, fun _ => rfl, fun _ _ h => h, fun _ _ => rfl, ?_⟩
  intro n txt h1 h2
  obtain ⟨i, hi⟩ := h1
  exact ⟨fun i => (h i).inOrder, h2, fun _ _ e => (by cases e), fun hno => absurd hi (hno i)⟩

theorem step_done (s : Sys ι α) {i : ι} (h : (s.prog i).Done) : s.step i = s := by
  have h1 : (s.prog i).step (s.view i) = (s.prog i, s.view i) := by
    generalize s.prog i = P at h
    cases P <;> first | rfl | exact h.elim
  unfold Sys.step
  rw [h1]
  obtain ⟨d, f, c, p⟩ := s
  congr 1
  exact Function.update_eq_self _ _

theorem Shared.step {U : List Str → Prop} {s0 s : Sys ι α} {cur : ι → Option (List Str × ℕ)} (h : Shared U s0 s cur) (i : ι) :
    ∃ cur', Shared U s0 (s.step i) cur' ∧ ∀ j, (events (s0.view j) ((s.step i).prog j)).length =
      (events (s0.view j) (s.prog j)).length - if j = i then 1 else 0 := by
  by_cases hd : (s.prog i).Done
  · refine ⟨cur, by rw [step_done s hd]; exact h, fun j => ?_⟩
    rw [step_done s hd]
    split
    · rename_i hj
      subst hj
      rw [events_done hd]
      rfl
    · rfl
  · obtain ⟨e, es, h1, h2, h3, h4, h5, h6, h7, h8⟩ := calm_step (h.near i) (fun n off e => (h.pos i n off e).1) (h.calm i) hd
    have hpi : (s.step i).prog i = ((s.prog i).step (s.view i)).1 := Function.update_self _ _ _
    have hpj : ∀ j, j ≠ i → (s.step i).prog j = s.prog j := fun j hj => Function.update_of_ne hj _ _
    have hevs : (fun j => events (s0.view j) ((s.step i).prog j)) =
        Function.update (fun j => events (s0.view j) (s.prog j)) i es := by
      funext j
      by_cases hj : j = i
      · subst hj; rw [Function.update_self, hpi, h2]
      · rw [Function.update_of_ne hj, hpj j hj]
    have hfiles : ∀ n, (s.step i).files.get? n = e.act n (s.files.get? n) := h6
    have hopi : ∀ n, Opens n es → Opens n (events (s0.view i) (s0.prog i)) :=
      fun n hn => h.opens i n (by rw [h1]; exact List.mem_cons_of_mem _ hn)
    refine ⟨Function.update cur i (e.next (cur i)), ⟨h.cwd, ?_, ?_, ?_, ?_, ?_, ?_, ?_⟩, ?_⟩
    · intro j
      have ha := h5.agree
      refine ⟨⟨?_, ha.dirs, ha.files⟩, ?_⟩
      · show s.cwd j = s0.cwd j
        rw [h.cwd]
      · exact h5.dirs
    · intro j n off hc
      by_cases hj : j = i
      · subst hj
        rw [Function.update_self] at hc
        refine ⟨h7 n off hc, ?_⟩
        rcases h8 n off hc with h8 | h8 | ⟨off', h8⟩
        · exact (h.pos j n off h8).2
        · exact h.opens j n h8
        · exact (h.pos j n off' h8).2
      · rw [Function.update_of_ne hj] at hc
        exact h.pos j n off hc
    · intro j
      by_cases hj : j = i
      · subst hj; rw [Function.update_self, hpi]; exact h4
      · rw [Function.update_of_ne hj, hpj j hj]; exact h.calm j
    · intro j
      by_cases hj : j = i
      · subst hj; rw [hpi, h3]; exact h.result j
      · rw [hpj j hj]; exact h.result j
    · intro j n hn
      by_cases hj : j = i
      · subst hj; rw [hpi, h2] at hn; exact hopi n hn
      · rw [hpj j hj] at hn; exact h.opens j n hn
    · intro n hno
      rw [hfiles, ← h.other n hno]
      cases e with
      | look => rfl
      | trunc m =>
        show (if m = n then _ else _) = _
        rw [if_neg]
        rintro rfl
        exact hno i (h.opens i m (by rw [h1]; exact List.mem_cons_self))
      | put m off c =>
        show (if m = n then _ else _) = _
        rw [if_neg]
        rintro rfl
        have ho := (h.calm i).inOrder
        rw [h1] at ho
        exact hno i (h.pos i m off (ho.1 m off c rfl)).2
    · intro n txt hex ht
      have hk := (h.node n txt hex ht).step (i := i) (e := e) (es := es) h1
      rw [hevs, hfiles]
      exact hk
    · intro j
      have := congrFun hevs j
      beta_reduce at this
      rw [this]
      by_cases hj : j = i
      · subst hj
        rw [Function.update_self, if_pos rfl, h1]
        rfl
      · rw [Function.update_of_ne hj, if_neg hj]
        rfl

theorem Shared.run {U : List Str → Prop} {s0 : Sys ι α} : ∀ (sched : List ι) {s : Sys ι α} {cur : ι → Option (List Str × ℕ)},
    Shared U s0 s cur → ∃ cur', Shared U s0 (s.run sched) cur' ∧ ∀ j, (events (s0.view j) ((s.run sched).prog j)).length =
      (events (s0.view j) (s.prog j)).length - sched.count j
  | [], s, cur, h => ⟨cur, h, fun _ => rfl⟩
  | i :: sched, s, cur, h => by
    obtain ⟨cur1, h1, h1'⟩ := h.step i
    obtain ⟨cur2, h2, h2'⟩ := Shared.run sched h1
    refine ⟨cur2, h2, fun j => ?_⟩
    refine (h2' j).trans ?_
    rw [h1' j, List.count_cons]
    by_cases hj : j = i
    · subst hj; simp; omega
    · have : (i == j) = false := by simpa using fun e => hj e.symm
      rw [if_neg hj, this]
      simp

/-- Calm processes that write the same content to the files they share: each of them ends as it would have ended alone,
and in the end every file is what it is after any of the processes that write it has run alone. -/
theorem shared_files {U : List Str → Prop} {s : Sys ι α} (h : ∀ i, Calm (s.view i) U none (s.prog i))
    (hsame : ∀ i j n, Opens n (events (s.view i) (s.prog i)) → Opens n (events (s.view j) (s.prog j)) →
      ((s.prog i).solo (s.view i)).2.files.get? n = ((s.prog j).solo (s.view j)).2.files.get? n) (sched : List ι) :
    (s.run sched).dirs = s.dirs ∧
    (∀ i, ((s.run sched).prog i).Done → (s.run sched).prog i = ofMain ((s.prog i).solo (s.view i)).1) ∧
    (∀ i, (s.prog i).steps (s.view i) ≤ sched.count i → ((s.run sched).prog i).Done) ∧
    (∀ n, (∀ i, Opens n (events (s.view i) (s.prog i)) → ((s.run sched).prog i).Done) →
      ∀ i, Opens n (events (s.view i) (s.prog i)) →
        (s.run sched).files.get? n = ((s.prog i).solo (s.view i)).2.files.get? n) ∧
    (∀ n, (∀ i, ¬ Opens n (events (s.view i) (s.prog i))) → (s.run sched).files.get? n = s.files.get? n) := by
  obtain ⟨cur, hs, hl⟩ := Shared.run sched (Shared.start h)
  have hsolo := fun i => calm_solo (o := s.view i) (U := U) _ rfl (NearBy.refl _ _) (fun _ _ e => (by cases e)) (h i)
  refine ⟨?_, ?_, ?_, ?_, ?_⟩
  · cases sched with
    | nil => rfl
    | cons i t => exact (hs.near i).dirs
  · intro i hd
    have := done_outcome (o := s.view i) hd
    rw [hs.result i] at this
    rw [(hsolo i).1]
    exact this
  · intro i hc
    rw [(hsolo i).2.2.1] at hc
    refine done_events (o := s.view i) (List.length_eq_zero_iff.1 ?_)
    rw [hl i]
    omega
  · intro n hdone i hi
    obtain ⟨txt, ht⟩ : ∃ txt, ((s.prog i).solo (s.view i)).2.files.get? n = some txt := by
      rw [(hsolo i).2.2.2 n]
      have key : ∀ es : List Ev, ∀ c : Option Str, (Opens n es ∨ c ≠ none) → actAll n es c ≠ none := by
        intro es
        induction es with
        | nil => intro c hc; exact hc.elim (fun h => by cases h) id
        | cons e es ih =>
          intro c hc
          rw [actAll_cons]
          apply ih
          cases e with
          | look =>
            refine hc.imp (fun h => ?_) id
            rcases List.mem_cons.1 h with h | h
            · cases h
            · exact h
          | trunc m =>
            by_cases hm : m = n
            · right
              show (if m = n then _ else _) ≠ none
              rw [if_pos hm]
              simp
            · refine hc.imp (fun h => ?_) (fun h => ?_)
              · rcases List.mem_cons.1 h with h | h
                · injection h with h; exact absurd h.symm hm
                · exact h
              · show (if m = n then _ else _) ≠ none
                rw [if_neg hm]; exact h
          | put m off x =>
            by_cases hm : m = n
            · right
              show (if m = n then _ else _) ≠ none
              rw [if_pos hm]
              simp
            · refine hc.imp (fun h => ?_) (fun h => ?_)
              · rcases List.mem_cons.1 h with h | h
                · cases h
                · exact h
              · show (if m = n then _ else _) ≠ none
                rw [if_neg hm]; exact h
      have := key _ ((s.view i).files.get? n) (Or.inl hi)
      exact Option.ne_none_iff_exists'.1 this
    rw [ht]
    refine (hs.node n txt ⟨i, hi⟩ (fun j hj => ?_)).done (fun j hj => ?_) (fun j off hc => ?_)
    · rw [← ht, hsame i j n hi hj, (hsolo j).2.2.2 n]
      exact actAll_opens hj _ _
    · rw [events_done (hdone j (hs.opens j n hj))] at hj
      cases hj
    · exact events_done (hdone j (hs.pos j n off hc).2)
  · exact hs.other

end
end Dissect
