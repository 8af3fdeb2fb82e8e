import Verif.Model.Py
import Mathlib.Data.List.Forall2
import Mathlib.Data.Int.Notation

/-! Helper lemmas about outcomes and dictionaries. -/

namespace Dissect

theorem bind_eq_ok {α β : Type} {x : Py α} {f : α → Py β} {b : β} :
    (x >>= f) = .ok b ↔ ∃ a, x = .ok a ∧ f a = .ok b := by
  cases x with
  | error e => simp [bind, Except.bind]
  | ok a => simp [bind, Except.bind]

theorem bind_eq_error {α β : Type} {x : Py α} {f : α → Py β} {e : PyErr} :
    (x >>= f) = .error e ↔ x = .error e ∨ ∃ a, x = .ok a ∧ f a = .error e := by
  cases x with
  | error e => simp [bind, Except.bind]
  | ok a => simp [bind, Except.bind]

@[simp] theorem ok_bind {α β : Type} (a : α) (f : α → Py β) : ((.ok a : Py α) >>= f) = f a := rfl
@[simp] theorem error_bind {α β : Type} (e : PyErr) (f : α → Py β) : ((.error e : Py α) >>= f) = .error e := rfl
@[simp] theorem pure_eq_ok {α : Type} (a : α) : (pure a : Py α) = .ok a := rfl

theorem ok_inj {α : Type} {a b : α} (h : (.ok a : Py α) = .ok b) : a = b := by injection h

theorem py_cases {α : Type} (x : Py α) : (∃ a, x = .ok a) ∨ ∃ e, x = .error e := by
  cases x with
  | ok a => exact .inl ⟨a, rfl⟩
  | error e => exact .inr ⟨e, rfl⟩

/-! ### Python indexing -/

theorem pyIdx_lt {n : ℕ} {v : ℤ} {k : ℕ} (h : pyIdx n v = some k) : k < n := by
  unfold pyIdx at h
  split at h
  · injection h with h; omega
  · split at h
    · injection h with h; omega
    · cases h

theorem pyIdx_nat {n k : ℕ} (h : k < n) : pyIdx n (k : ℤ) = some k := by
  unfold pyIdx
  rw [if_pos (by omega)]
  simp

theorem pyGet_eq_ok {α : Type} {l : List α} {v : ℤ} {x : α} :
    pyGet l v = .ok x ↔ ∃ k, pyIdx l.length v = some k ∧ l[k]? = some x := by
  unfold pyGet
  cases hk : pyIdx l.length v with
  | none => simp
  | some k =>
    cases hx : l[k]? with
    | none => simp [hx]
    | some y => simp [hx]

theorem pyGet_nat {α : Type} {l : List α} {k : ℕ} {x : α} (h : l[k]? = some x) : pyGet l (k : ℤ) = .ok x := by
  rw [pyGet_eq_ok]
  have : k < l.length := by
    by_contra hc
    rw [List.getElem?_eq_none (by omega)] at h
    cases h
  exact ⟨k, pyIdx_nat this, h⟩

theorem pyGet_nat_iff {α : Type} {l : List α} {k : ℕ} {x : α} : pyGet l (k : ℤ) = .ok x ↔ l[k]? = some x := by
  constructor
  · intro h
    obtain ⟨k', h1, h2⟩ := pyGet_eq_ok.1 h
    have hlt : (k : ℕ) < l.length := by
      by_contra hc
      unfold pyIdx at h1
      rw [if_neg (by omega), if_neg (by omega)] at h1
      cases h1
    rw [pyIdx_nat hlt] at h1
    injection h1 with h1
    rw [h1]; exact h2
  · exact pyGet_nat

theorem pyGet_mem {α : Type} {l : List α} {v : ℤ} {x : α} (h : pyGet l v = .ok x) : x ∈ l := by
  obtain ⟨k, _, h2⟩ := pyGet_eq_ok.1 h
  exact List.mem_of_getElem? h2

/-- Python list indexing raises nothing but `IndexError`. -/
theorem pyGet_error {α : Type} {l : List α} {v : ℤ} {e : PyErr} (h : pyGet l v = .error e) : e = .indexError := by
  unfold pyGet at h
  split at h
  · injection h with h; exact h.symm
  · split at h
    · cases h
    · injection h with h; exact h.symm

/-- An index that is valid in a list addresses the same element after appending only if it is non-negative; for a
non-negative index the element stays. -/
theorem getElem?_append_some {α : Type} {l m : List α} {k : ℕ} {x : α} (h : l[k]? = some x) :
    (l ++ m)[k]? = some x := by
  have : k < l.length := by
    by_contra hc
    rw [List.getElem?_eq_none (by omega)] at h
    cases h
  rw [List.getElem?_append_left this]
  exact h

/-! ### Dictionaries -/
namespace Dict
variable {κ β : Type} [DecidableEq κ]

theorem get?_eq_some_iff {d : Dict κ β} {k : κ} {v : β} : d.get? k = some v ↔ (k, v) ∈ d.entries := by
  unfold get?
  constructor
  · intro h
    rw [Option.map_eq_some_iff] at h
    obtain ⟨e, he, hv⟩ := h
    have h1 := List.mem_of_find?_eq_some he
    have h2 := List.find?_some he
    simp only [decide_eq_true_eq] at h2
    rw [← h2, ← hv]
    exact h1
  · intro h
    have hn := d.nodup
    generalize d.entries = l at h hn
    induction l with
    | nil => cases h
    | cons e es ih =>
      simp only [List.map_cons, List.nodup_cons] at hn
      rcases List.mem_cons.1 h with rfl | h
      · simp [List.find?_cons]
      · have hne : e.1 ≠ k := by
          rintro rfl
          exact hn.1 (List.mem_map.2 ⟨_, h, rfl⟩)
        rw [List.find?_cons_of_neg (by simpa using hne)]
        exact ih h hn.2

theorem mem_keys_iff {d : Dict κ β} {k : κ} : k ∈ d.keys ↔ ∃ v, d.get? k = some v := by
  unfold keys
  rw [List.mem_map]
  constructor
  · rintro ⟨⟨k', v⟩, h, rfl⟩
    exact ⟨v, get?_eq_some_iff.2 h⟩
  · rintro ⟨v, h⟩
    exact ⟨(k, v), get?_eq_some_iff.1 h, rfl⟩

theorem contains_iff {d : Dict κ β} {k : κ} : d.contains k = true ↔ ∃ v, d.get? k = some v := by
  unfold contains
  rw [decide_eq_true_eq, mem_keys_iff]

theorem not_contains_iff {d : Dict κ β} {k : κ} : d.contains k = false ↔ d.get? k = none := by
  rw [← Bool.not_eq_true, contains_iff]
  constructor
  · intro h
    cases hk : d.get? k with
    | none => rfl
    | some v => exact absurd ⟨v, hk⟩ h
  · rintro h ⟨v, hv⟩
    rw [h] at hv; cases hv

theorem getItem_eq_ok {d : Dict κ β} {k : κ} {v : β} : d.getItem k = .ok v ↔ d.get? k = some v := by
  unfold getItem
  cases d.get? k <;> simp

theorem getItem_eq_error {d : Dict κ β} {k : κ} {e : PyErr} :
    d.getItem k = .error e ↔ e = .keyError ∧ d.get? k = none := by
  unfold getItem
  cases d.get? k <;> simp [eq_comm]

theorem mem_setEntries {k : κ} {v : β} {l : List (κ × β)} (hn : (l.map Prod.fst).Nodup) (x : κ) (y : β) :
    (x, y) ∈ setEntries k v l ↔ if x = k then y = v else (x, y) ∈ l := by
  induction l with
  | nil =>
    simp only [setEntries, List.mem_singleton, Prod.mk.injEq, List.not_mem_nil]
    split <;> tauto
  | cons e es ih =>
    simp only [List.map_cons, List.nodup_cons] at hn
    unfold setEntries
    by_cases hk : e.1 = k
    · rw [if_pos hk]
      by_cases hx : x = k
      · subst hx
        rw [if_pos rfl, List.mem_cons]
        constructor
        · rintro (h | h)
          · injection h
          · exact absurd (List.mem_map.2 ⟨_, h, rfl⟩) (by rw [← hk]; exact hn.1)
        · rintro rfl; exact Or.inl rfl
      · rw [if_neg hx, List.mem_cons, List.mem_cons]
        constructor
        · rintro (h | h)
          · injection h with h1 h2; exact absurd h1 hx
          · exact Or.inr h
        · rintro (h | h)
          · exact absurd (by rw [← h] at hk; exact hk) hx
          · exact Or.inr h
    · rw [if_neg hk, List.mem_cons, ih hn.2]
      by_cases hx : x = k
      · subst hx
        rw [if_pos rfl, if_pos rfl]
        constructor
        · rintro (h | h)
          · exact absurd (by rw [← h]) hk
          · exact h
        · exact Or.inr
      · rw [if_neg hx, if_neg hx, List.mem_cons]

theorem get?_set (d : Dict κ β) (k x : κ) (v : β) :
    (d.set k v).get? x = if x = k then some v else d.get? x := by
  apply Option.ext
  intro y
  rw [get?_eq_some_iff]
  change (x, y) ∈ setEntries k v d.entries ↔ _
  rw [mem_setEntries d.nodup]
  split
  · rw [Option.some.injEq]; exact eq_comm
  · rw [get?_eq_some_iff]

theorem length_setEntries (k : κ) (v : β) (l : List (κ × β)) (h : k ∉ l.map Prod.fst) :
    (setEntries k v l).length = l.length + 1 := by
  induction l with
  | nil => rfl
  | cons e es ih =>
    simp only [List.map_cons, List.mem_cons, not_or] at h
    unfold setEntries
    rw [if_neg (fun hh => h.1 hh.symm)]
    simp [ih h.2]

theorem len_set (d : Dict κ β) (k : κ) (v : β) (h : d.get? k = none) : (d.set k v).len = d.len + 1 := by
  unfold len set
  apply length_setEntries
  intro hk
  obtain ⟨v, hv⟩ := mem_keys_iff.1 hk
  rw [h] at hv; cases hv

@[simp] theorem get?_empty (k : κ) : (Dict.empty : Dict κ β).get? k = none := rfl
@[simp] theorem len_empty : (Dict.empty : Dict κ β).len = 0 := rfl

end Dict
end Dissect
