import Verif.Lemmas.Py
import Verif.Spec.Space

/-! Helper lemmas about `list2dict`, `add_items_to_dict`, `assert_dict_match_list` and `Labels`. -/

namespace Dissect
variable {κ : Type} [DecidableEq κ]

theorem list2dictAux_spec (l : List κ) : ∀ (d : Dict κ ℤ) (n : ℕ),
    (∀ d', list2dictAux d n l = .ok d' →
      l.Nodup ∧ (∀ w ∈ l, d.get? w = none) ∧ d'.len = d.len + l.length ∧
      (∀ (i : ℕ) w, l[i]? = some w → d'.get? w = some ((n + i : ℕ) : ℤ)) ∧
      (∀ w, w ∉ l → d'.get? w = d.get? w)) ∧
    (l.Nodup → (∀ w ∈ l, d.get? w = none) → ∃ d', list2dictAux d n l = .ok d') ∧
    (∀ e, list2dictAux d n l = .error e → e = .valueError) := by
  induction l with
  | nil =>
    intro d n
    refine ⟨?_, ?_, ?_⟩
    · intro d' h
      simp only [list2dictAux] at h
      have := ok_inj h
      subst this
      simp
    · intro _ _; exact ⟨d, rfl⟩
    · intro e h; simp [list2dictAux] at h
  | cons w ws ih =>
    intro d n
    simp only [list2dictAux]
    by_cases hc : d.contains w = true
    · rw [if_pos hc]
      obtain ⟨v, hv⟩ := Dict.contains_iff.1 hc
      refine ⟨?_, ?_, ?_⟩
      · intro d' h; cases h
      · intro _ hnone
        have := hnone w (by simp)
        rw [this] at hv; cases hv
      · intro e h; injection h with h; exact h.symm
    · rw [if_neg hc]
      have hnone : d.get? w = none := Dict.not_contains_iff.1 (by simpa using hc)
      obtain ⟨i1, i2, i3⟩ := ih (d.set w (n : ℤ)) (n + 1)
      refine ⟨?_, ?_, i3⟩
      · intro d' h
        obtain ⟨h1, h2, h3, h4, h5⟩ := i1 d' h
        have hw : w ∉ ws := by
          intro hm
          have := h2 w hm
          rw [Dict.get?_set, if_pos rfl] at this
          cases this
        refine ⟨List.nodup_cons.2 ⟨hw, h1⟩, ?_, ?_, ?_, ?_⟩
        · intro x hx
          rcases List.mem_cons.1 hx with rfl | hx
          · exact hnone
          · have := h2 x hx
            rw [Dict.get?_set] at this
            split at this
            · cases this
            · exact this
        · rw [h3, Dict.len_set _ _ _ hnone]; simp; omega
        · intro i x hx
          cases i with
          | zero =>
            simp only [List.getElem?_cons_zero, Option.some.injEq] at hx
            subst hx
            rw [h5 _ hw, Dict.get?_set, if_pos rfl]; rfl
          | succ i =>
            rw [List.getElem?_cons_succ] at hx
            rw [h4 i x hx]
            congr 2; omega
        · intro x hx
          simp only [List.mem_cons, not_or] at hx
          rw [h5 x hx.2, Dict.get?_set, if_neg hx.1]
      · intro hn hno
        rw [List.nodup_cons] at hn
        apply i2 hn.2
        intro x hx
        rw [Dict.get?_set, if_neg (by rintro rfl; exact hn.1 hx)]
        exact hno x (List.mem_cons_of_mem _ hx)

theorem list2dict_ok {l : List κ} {d : Dict κ ℤ} (h : list2dict l = .ok d) :
    Labels l d ∧ d.len = l.length ∧ ∀ (i : ℕ) w, l[i]? = some w → d.get? w = some (i : ℤ) := by
  obtain ⟨h1, _, h3, h4, h5⟩ := (list2dictAux_spec l Dict.empty 0).1 d h
  have h4' : ∀ (i : ℕ) w, l[i]? = some w → d.get? w = some (i : ℤ) := by
    intro i w hw; rw [h4 i w hw]; simp
  refine ⟨⟨h1, ?_, ?_⟩, by simpa using h3, h4'⟩
  · intro k
    constructor
    · intro hk
      obtain ⟨i, hi⟩ := List.mem_iff_getElem?.1 hk
      exact ⟨_, h4 i k hi⟩
    · rintro ⟨v, hv⟩
      by_contra hk
      rw [h5 k hk] at hv
      simp at hv
  · intro k v hv
    by_cases hk : k ∈ l
    · obtain ⟨i, hi⟩ := List.mem_iff_getElem?.1 hk
      rw [h4' i k hi] at hv
      injection hv with hv
      rw [← hv]
      exact pyGet_nat hi
    · rw [h5 k hk] at hv
      simp at hv

theorem list2dict_of_nodup {l : List κ} (h : l.Nodup) : ∃ d, list2dict l = .ok d :=
  (list2dictAux_spec l Dict.empty 0).2.1 h (by simp)

theorem list2dict_error {l : List κ} {e : PyErr} (h : list2dict l = .error e) : e = .valueError ∧ ¬ l.Nodup := by
  refine ⟨(list2dictAux_spec l Dict.empty 0).2.2 e h, fun hn => ?_⟩
  obtain ⟨d, hd⟩ := list2dict_of_nodup hn
  rw [hd] at h; cases h

theorem addItemsAux_eq (noEls : ℕ) (l : List κ) : ∀ (d : Dict κ ℤ) (idx : ℕ),
    (∀ d', list2dictAux d (noEls + idx) l = .ok d' → addItemsAux noEls d idx l = (d', .ok ())) ∧
    (∀ d', addItemsAux noEls d idx l = (d', .ok ()) → list2dictAux d (noEls + idx) l = .ok d') ∧
    (∀ d' e, addItemsAux noEls d idx l = (d', .error e) → e = .valueError) := by
  induction l with
  | nil =>
    intro d idx
    refine ⟨?_, ?_, ?_⟩
    · intro d' h; simp only [list2dictAux] at h; rw [← ok_inj h]; rfl
    · intro d' h; simp only [addItemsAux, Prod.mk.injEq, and_true] at h; rw [← h]; rfl
    · intro d' e h; simp [addItemsAux] at h
  | cons w ws ih =>
    intro d idx
    simp only [list2dictAux, addItemsAux]
    by_cases hc : d.contains w = true
    · simp only [hc, if_true]
      refine ⟨?_, ?_, ?_⟩
      · intro d' h; cases h
      · intro d' h; simp at h
      · intro d' e h; simp only [Prod.mk.injEq, Except.error.injEq] at h; exact h.2.symm
    · simp only [hc, if_false]
      have := ih (d.set w ((noEls + idx : ℕ) : ℤ)) (idx + 1)
      rw [← Nat.add_assoc] at this
      exact this

/-- Successful `add_items_to_dict`: new and old words are disjoint and distinct, old entries stay, new words get the
positions after the old ones. -/
theorem addItems_ok {d d' : Dict κ ℤ} {l : List κ} (h : addItemsToDict d l = (d', .ok ())) :
    l.Nodup ∧ (∀ w ∈ l, d.get? w = none) ∧ d'.len = d.len + l.length ∧
      (∀ (i : ℕ) w, l[i]? = some w → d'.get? w = some ((d.len + i : ℕ) : ℤ)) ∧
      (∀ w, w ∉ l → d'.get? w = d.get? w) := by
  have := (addItemsAux_eq d.len l d 0).2.1 d' h
  exact (list2dictAux_spec l d (d.len + 0)).1 d' this

theorem addItems_of_disjoint {d : Dict κ ℤ} {l : List κ} (h1 : l.Nodup) (h2 : ∀ w ∈ l, d.get? w = none) :
    ∃ d', addItemsToDict d l = (d', .ok ()) := by
  obtain ⟨d', hd'⟩ := (list2dictAux_spec l d (d.len + 0)).2.1 h1 h2
  exact ⟨d', (addItemsAux_eq d.len l d 0).1 d' hd'⟩

theorem addItems_error {d d' : Dict κ ℤ} {l : List κ} {e : PyErr} (h : addItemsToDict d l = (d', .error e)) :
    e = .valueError := (addItemsAux_eq d.len l d 0).2.2 d' e h

theorem matchLoop_ok_iff (l : List κ) (es : List (κ × ℤ)) :
    matchLoop l es = .ok () ↔ ∀ e ∈ es, pyGet l e.2 = .ok e.1 := by
  induction es with
  | nil => simp [matchLoop]
  | cons e es ih =>
    obtain ⟨k, v⟩ := e
    simp only [matchLoop, List.mem_cons, forall_eq_or_imp]
    cases hp : pyGet l v with
    | error e => simp
    | ok x =>
      by_cases hx : x = k
      · subst hx; simp [ih]
      · simp [hx]

theorem matchLoop_error {l : List κ} {es : List (κ × ℤ)} {e : PyErr} (h : matchLoop l es = .error e) :
    e = .valueError ∨ (e = .indexError ∧ ∃ x ∈ es, pyIdx l.length x.2 = none) := by
  induction es with
  | nil => simp [matchLoop] at h
  | cons x es ih =>
    obtain ⟨k, v⟩ := x
    simp only [matchLoop] at h
    split at h
    · rename_i e' he'
      injection h with h
      subst h
      right
      refine ⟨pyGet_error he', (k, v), by simp, ?_⟩
      unfold pyGet at he'
      cases hi : pyIdx l.length v with
      | none => rfl
      | some i =>
        have := pyIdx_lt hi
        simp only [hi, List.getElem?_eq_getElem this] at he'
        cases he'
    · split at h
      · rcases ih h with h1 | ⟨h1, x, hx, h2⟩
        · exact .inl h1
        · exact .inr ⟨h1, x, List.mem_cons_of_mem _ hx, h2⟩
      · injection h with h; exact .inl h.symm

/-- `assert_dict_match_list` accepts exactly the inverse maps: equal lengths and right indices force the labels to be
distinct. -/
theorem assertDictMatchList_ok_iff (d : Dict κ ℤ) (l : List κ) :
    assertDictMatchList d l = .ok () ↔ Labels l d := by
  unfold assertDictMatchList
  constructor
  · intro h
    split at h
    · cases h
    · rename_i hlen
      have hlen : l.length = d.len := by simpa using hlen
      rw [matchLoop_ok_iff] at h
      have hidx : ∀ k v, d.get? k = some v → pyGet l v = .ok k := fun k v hv =>
        h (k, v) (Dict.get?_eq_some_iff.1 hv)
      have hsub : d.keys ⊆ l := by
        intro k hk
        obtain ⟨v, hv⟩ := Dict.mem_keys_iff.1 hk
        exact pyGet_mem (hidx k v hv)
      have hperm : d.keys.Perm l := by
        apply (List.subperm_of_subset d.nodup hsub).perm_of_length_le
        simp only [Dict.keys, List.length_map]
        unfold Dict.len at hlen
        omega
      exact ⟨hperm.nodup_iff.1 d.nodup, fun k => by rw [← hperm.mem_iff, Dict.mem_keys_iff], hidx⟩
  · intro h
    have hperm : d.keys.Perm l := by
      rw [List.perm_ext_iff_of_nodup (show d.keys.Nodup from d.nodup) h.nodup]
      intro k
      rw [h.keys, Dict.mem_keys_iff]
    have hlen : l.length = d.len := by
      rw [← hperm.length_eq]; simp [Dict.keys, Dict.len]
    rw [if_neg (by simpa using hlen), matchLoop_ok_iff]
    intro e he
    exact h.index e.1 e.2 (Dict.get?_eq_some_iff.2 he)

theorem Labels.len {l : List κ} {d : Dict κ ℤ} (h : Labels l d) : d.len = l.length := by
  have hperm : d.keys.Perm l := by
    rw [List.perm_ext_iff_of_nodup (show d.keys.Nodup from d.nodup) h.nodup]
    intro k
    rw [h.keys, Dict.mem_keys_iff]
  rw [← hperm.length_eq]; simp [Dict.keys, Dict.len]

theorem Labels.empty : Labels ([] : List κ) Dict.empty :=
  ⟨List.nodup_nil, by simp, by simp⟩

theorem assertDictMatchList_error {d : Dict κ ℤ} {l : List κ} {e : PyErr}
    (h : assertDictMatchList d l = .error e) :
    e = .valueError ∨ (e = .indexError ∧ ∃ k v, d.get? k = some v ∧ pyIdx l.length v = none) := by
  unfold assertDictMatchList at h
  split at h
  · injection h with h; exact .inl h.symm
  · rcases matchLoop_error h with h1 | ⟨h1, ⟨k, v⟩, hx, h2⟩
    · exact .inl h1
    · exact .inr ⟨h1, k, v, Dict.get?_eq_some_iff.2 hx, h2⟩

/-- Lookup of a word in a consistent map: the normalised index is a position of the word. -/
theorem Labels.lookup {l : List κ} {d : Dict κ ℤ} (h : Labels l d) {w : κ} {i : ℕ} (hw : l[i]? = some w) :
    ∃ v, d.get? w = some v ∧ pyIdx l.length v = some i := by
  obtain ⟨v, hv⟩ := (h.keys w).1 (List.mem_of_getElem? hw)
  refine ⟨v, hv, ?_⟩
  obtain ⟨k, hk1, hk2⟩ := pyGet_eq_ok.1 (h.index w v hv)
  rw [hk1]
  congr 1
  have hk := pyIdx_lt hk1
  have hi : i < l.length := by
    by_contra hc
    rw [List.getElem?_eq_none (by omega)] at hw; cases hw
  rw [List.getElem?_eq_getElem hk] at hk2
  rw [List.getElem?_eq_getElem hi] at hw
  injection hk2 with hk2
  injection hw with hw
  exact (h.nodup.getElem_inj_iff).1 (hk2.trans hw.symm)

theorem Labels.lookup_none {l : List κ} {d : Dict κ ℤ} (h : Labels l d) {w : κ} (hw : w ∉ l) : d.get? w = none := by
  cases hv : d.get? w with
  | none => rfl
  | some v => exact absurd ((h.keys w).2 ⟨v, hv⟩) hw

end Dissect
