import Verif.Model.Io
import Verif.Spec.Io
import Verif.Lemmas.Text
import Verif.Lemmas.Labels
import Verif.Lemmas.Csr

/-! Readers of `Model/Io.lean`. -/

namespace Dissect

theorem tokenLines_eq (content : Str) : tokenLines content = records content := by
  unfold tokenLines records
  rw [List.filter_map]
  rw [show (fun l => split (strip l)) = split from funext split_strip]
  congr 1
  apply List.filter_congr
  intro l _
  simp only [Function.comp, decide_eq_decide]
  exact (strip_eq_nil l).not

theorem noLines_eq (content : Str) :
    ((fileLines content).filter (fun l => decide (strip l ≠ []))).length = (records content).length := by
  rw [← tokenLines_eq]; unfold tokenLines; simp

/-! ### Index structures -/

theorem IndexOf.nodup {α : Type} [DecidableEq α] {l : List α} {d : Dict α ℤ} (h : IndexOf l d) : l.Nodup := by
  rw [List.nodup_iff_getElem?_ne_getElem?]
  intro i j hij hj he
  obtain ⟨w, hw⟩ : ∃ w, l[j]? = some w := ⟨l[j], by simp [hj]⟩
  rw [hw] at he
  have h1 := (h w i).2 ⟨i, rfl, he⟩
  have h2 := (h w j).2 ⟨j, rfl, hw⟩
  rw [h1] at h2
  injection h2 with h2
  omega

theorem IndexOf.labels {α : Type} [DecidableEq α] {l : List α} {d : Dict α ℤ} (h : IndexOf l d) : Labels l d where
  nodup := h.nodup
  keys k := by
    constructor
    · intro hk
      obtain ⟨i, hi, rfl⟩ := List.mem_iff_getElem.1 hk
      exact ⟨i, (h _ _).2 ⟨i, rfl, by simp [hi]⟩⟩
    · rintro ⟨v, hv⟩
      obtain ⟨i, _, hi⟩ := (h _ _).1 hv
      exact List.mem_of_getElem? hi
  index k v hv := by
    obtain ⟨i, rfl, hi⟩ := (h _ _).1 hv
    exact pyGet_nat hi

theorem IndexOf.len {α : Type} [DecidableEq α] {l : List α} {d : Dict α ℤ} (h : IndexOf l d) : d.len = l.length :=
  h.labels.len

theorem IndexOf.get_some {α : Type} [DecidableEq α] {l : List α} {d : Dict α ℤ} (h : IndexOf l d) {i : ℕ} {w : α}
    (hw : l[i]? = some w) : d.get? w = some (i : ℤ) := (h _ _).2 ⟨i, rfl, hw⟩

theorem IndexOf.get_none {α : Type} [DecidableEq α] {l : List α} {d : Dict α ℤ} (h : IndexOf l d) {w : α}
    (hw : w ∉ l) : d.get? w = none := h.labels.lookup_none hw

theorem IndexOf.get_mem {α : Type} [DecidableEq α] {l : List α} {d : Dict α ℤ} (h : IndexOf l d) {w : α}
    (hw : w ∈ l) : ∃ i : ℕ, i < l.length ∧ l[i]? = some w ∧ d.get? w = some (i : ℤ) := by
  obtain ⟨i, hi, rfl⟩ := List.mem_iff_getElem.1 hw
  exact ⟨i, hi, by simp [hi], h.get_some (by simp [hi])⟩

theorem IndexOf.unique {α : Type} [DecidableEq α] {l : List α} {d : Dict α ℤ} (h : IndexOf l d) {i j : ℕ} {w : α}
    (hi : l[i]? = some w) (hj : l[j]? = some w) : i = j := by
  have h1 := h.get_some hi
  have h2 := h.get_some hj
  rw [h1] at h2
  injection h2 with h2
  omega

theorem IndexOf.empty {α : Type} [DecidableEq α] : IndexOf ([] : List α) (Dict.empty : Dict α ℤ) := by
  intro w v; simp [Dict.empty, Dict.get?]

theorem IndexOf.of_list2dict {α : Type} [DecidableEq α] {l : List α} {d : Dict α ℤ} (h : list2dict l = .ok d) :
    IndexOf l d := by
  obtain ⟨h1, _, h3⟩ := list2dict_ok h
  intro w v
  constructor
  · intro hv
    obtain ⟨i, hi, rfl⟩ := List.mem_iff_getElem.1 ((h1.keys w).2 ⟨v, hv⟩)
    have := h3 i l[i] (by simp [hi])
    rw [this] at hv
    injection hv with hv
    exact ⟨i, hv.symm, by simp [hi]⟩
  · rintro ⟨i, rfl, hi⟩
    exact h3 i w hi

/-! ### `extract_indexing_structs` -/

/-- The state after reading the words `toks`. -/
structure IdxInv (toks : List Str) (st : IdxSt) : Prop where
  first : FirstOcc toks st.l
  index : IndexOf st.l st.d
  count : st.n = st.l.length

theorem IdxInv.init : IdxInv [] ⟨Dict.empty, [], 0⟩ :=
  ⟨⟨List.nodup_nil, by simp, List.Pairwise.nil⟩, IndexOf.empty, rfl⟩

theorem IdxInv.step {toks : List Str} {st : IdxSt} (h : IdxInv toks st) (w : Str) :
    IdxInv (toks ++ [w]) (st.step w) := by
  unfold IdxSt.step
  have hidx : ∀ a ∈ toks, (toks ++ [w]).idxOf a = toks.idxOf a := fun a ha => List.idxOf_append_of_mem ha
  have hord : st.l.Pairwise (fun a b => (toks ++ [w]).idxOf a < (toks ++ [w]).idxOf b) := by
    refine h.first.order.imp_of_mem ?_
    intro a b ha hb hab
    rw [hidx a ((h.first.mem a).1 ha), hidx b ((h.first.mem b).1 hb)]
    exact hab
  by_cases hw : w ∈ st.l
  · obtain ⟨i, _, _, hi⟩ := h.index.get_mem hw
    rw [if_pos (Dict.contains_iff.2 ⟨_, hi⟩)]
    refine ⟨⟨h.first.nodup, ?_, hord⟩, h.index, h.count⟩
    intro x
    rw [h.first.mem x, List.mem_append, List.mem_singleton]
    constructor
    · exact Or.inl
    · rintro (hx | rfl)
      · exact hx
      · exact (h.first.mem _).1 hw
  · have hn := h.index.get_none hw
    have hw' : w ∉ toks := fun hx => hw ((h.first.mem w).2 hx)
    rw [if_neg (by rw [Bool.not_eq_true, Dict.not_contains_iff]; exact hn)]
    refine ⟨⟨?_, ?_, ?_⟩, ?_, ?_⟩
    · rw [List.nodup_append]
      refine ⟨h.first.nodup, by simp, ?_⟩
      intro a ha b hb
      rw [List.mem_singleton] at hb
      subst hb
      rintro rfl
      exact hw ha
    · intro x
      simp only [List.mem_append, List.mem_singleton, h.first.mem x]
    · rw [List.pairwise_append]
      refine ⟨hord, by simp, ?_⟩
      intro a ha b hb
      rw [List.mem_singleton] at hb
      subst hb
      have ha' := (h.first.mem a).1 ha
      rw [hidx a ha', List.idxOf_append_of_notMem hw']
      have := List.idxOf_lt_length_iff.2 ha'
      omega
    · intro x v
      simp only []
      rw [Dict.get?_set]
      split
      · rename_i hx
        subst hx
        constructor
        · intro hv
          injection hv with hv
          refine ⟨st.n, hv.symm, ?_⟩
          rw [h.count]; simp
        · rintro ⟨i, rfl, hi⟩
          congr 1
          by_cases hlt : i < st.l.length
          · rw [List.getElem?_append_left hlt] at hi
            exact absurd (List.mem_of_getElem? hi) hw
          · have : i < (st.l ++ [x]).length := (List.getElem?_eq_some_iff.1 hi).1
            simp only [List.length_append, List.length_cons, List.length_nil] at this
            have h2 := h.count
            omega
      · rename_i hx
        rw [h.index]
        constructor
        · rintro ⟨i, rfl, hi⟩
          exact ⟨i, rfl, getElem?_append_some hi⟩
        · rintro ⟨i, rfl, hi⟩
          refine ⟨i, rfl, ?_⟩
          by_cases hlt : i < st.l.length
          · rwa [List.getElem?_append_left hlt] at hi
          · rw [List.getElem?_append_right (by omega)] at hi
            cases hd : i - st.l.length with
            | zero => rw [hd] at hi; simp at hi; exact absurd hi.symm hx
            | succ k => rw [hd] at hi; simp at hi
    · simp [h.count]

theorem IdxInv.foldl {ws : List Str} : ∀ {toks : List Str} {st : IdxSt}, IdxInv toks st →
    IdxInv (toks ++ ws) (ws.foldl IdxSt.step st) := by
  induction ws with
  | nil => intro toks st h; simpa using h
  | cons w ws ih =>
    intro toks st h
    rw [List.foldl_cons]
    have := ih (h.step w)
    rwa [List.append_assoc, List.singleton_append] at this

theorem idxLoop_eq (fields : List ℕ) (mx : ℕ) (ls : List (List Str)) : ∀ sts : List IdxSt,
    sts.length = fields.length →
    idxLoop fields mx ls sts = List.zipWith
      (fun f st => ((ls.filter (fun t => decide (mx < t.length))).filterMap (fun t => t[f]?)).foldl IdxSt.step st)
      fields sts := by
  induction ls with
  | nil =>
    intro sts h
    simp only [idxLoop, List.filter_nil, List.filterMap_nil, List.foldl_nil]
    apply List.ext_getElem?
    intro k
    rw [List.getElem?_zipWith]
    by_cases hk : k < sts.length
    · rw [List.getElem?_eq_getElem hk, List.getElem?_eq_getElem (by omega)]
    · rw [List.getElem?_eq_none (by omega), List.getElem?_eq_none (by omega)]
  | cons t ls ih =>
    intro sts h
    unfold idxLoop
    by_cases ht : t.length ≤ mx
    · rw [if_pos ht, ih sts h, List.filter_cons, if_neg (by simp; omega)]
    · rw [if_neg ht, ih _ (by simp [idxLine, h])]
      unfold idxLine
      apply List.ext_getElem?
      intro k
      rw [List.getElem?_zipWith, List.getElem?_zipWith, List.getElem?_zipWith, List.filter_cons,
        if_pos (by simp; omega)]
      cases hf : fields[k]? with
      | none => rfl
      | some f =>
        cases hs : sts[k]? with
        | none => rfl
        | some st =>
          simp only [List.filterMap_cons]
          cases t[f]? with
          | none => rfl
          | some w => rfl

theorem foldl_max_lt (fs : List ℕ) : ∀ (f n : ℕ), fs.foldl max f < n ↔ f < n ∧ ∀ g ∈ fs, g < n := by
  induction fs with
  | nil => intro f n; simp
  | cons g fs ih =>
    intro f n
    rw [List.foldl_cons, ih]
    simp only [List.mem_cons, forall_eq_or_imp, max_lt_iff, and_assoc]

theorem maxField_lt {fields : List ℕ} {mx n : ℕ} (h : maxField fields = .ok mx) :
    mx < n ↔ ∀ f ∈ fields, f < n := by
  cases fields with
  | nil => simp [maxField] at h
  | cons f fs =>
    injection h with h
    rw [← h, foldl_max_lt]
    simp

theorem idxLoop_column {fields : List ℕ} {mx : ℕ} (h : maxField fields = .ok mx) (content : Str) :
    idxLoop fields mx (tokenLines content) (fields.map (fun _ => ⟨Dict.empty, [], 0⟩)) =
      fields.map (fun f => (columnOf content fields f).foldl IdxSt.step ⟨Dict.empty, [], 0⟩) := by
  rw [idxLoop_eq _ _ _ _ (by simp), tokenLines_eq]
  have : (records content).filter (fun t => decide (mx < t.length)) = validRecords content fields := by
    unfold validRecords
    apply List.filter_congr
    intro t _
    rw [decide_eq_decide]
    exact maxField_lt h
  rw [this]
  apply List.ext_getElem?
  intro k
  rw [List.getElem?_zipWith, List.getElem?_map, List.getElem?_map]
  cases fields[k]? <;> rfl

theorem columnOf_eq_nil {content : Str} {fields : List ℕ} {f : ℕ} (hf : f ∈ fields) :
    columnOf content fields f = [] ↔ validRecords content fields = [] := by
  unfold columnOf
  constructor
  · intro h
    by_contra hne
    obtain ⟨t, ts, hts⟩ := List.exists_cons_of_ne_nil hne
    have ht : t ∈ validRecords content fields := by rw [hts]; simp
    have hlt : f < t.length := by
      have := (List.mem_filter.1 ht).2
      rw [decide_eq_true_eq] at this
      exact this f hf
    rw [List.filterMap_eq_nil_iff] at h
    have := h t ht
    rw [List.getElem?_eq_none_iff] at this
    omega
  · intro h; rw [h]; rfl

end Dissect
