import Verif.Spec.Space
import Verif.Lemmas.Labels
import Verif.Lemmas.Matrix

/-! # Lemmas about spaces -/

namespace Dissect
variable {κ : Type} [DecidableEq κ]

namespace Space

theorem resolveMap_eq_ok {l : List κ} {d : Option (Dict κ ℤ)} {r : Dict κ ℤ} (h : resolveMap l d = .ok r) :
    Labels l r ∧ (∀ d', d = some d' → r = d') := by
  cases d with
  | none =>
    simp only [resolveMap] at h
    exact ⟨(list2dict_ok h).1, by simp⟩
  | some d' =>
    simp only [resolveMap, bind_eq_ok, pure_eq_ok] at h
    obtain ⟨_, h1, h2⟩ := h
    obtain rfl := ok_inj h2
    exact ⟨(assertDictMatchList_ok_iff d' l).1 h1, by simp⟩

theorem resolveMap_none {l : List κ} (h : l.Nodup) : ∃ r, resolveMap l none = .ok r :=
  list2dict_of_nodup h

theorem resolveMap_some {l : List κ} {d : Dict κ ℤ} (h : Labels l d) : resolveMap l (some d) = .ok d := by
  simp [resolveMap, (assertDictMatchList_ok_iff d l).2 h]

theorem resolveMap_error {l : List κ} {d : Option (Dict κ ℤ)} {e : PyErr} (h : resolveMap l d = .error e) :
    e = .valueError ∨ (e = .indexError ∧ ∃ d' k v, d = some d' ∧ d'.get? k = some v ∧ pyIdx l.length v = none) := by
  cases d with
  | none => exact Or.inl (list2dict_error h).1
  | some d' =>
    simp only [resolveMap, bind_eq_error] at h
    rcases h with h | ⟨_, _, h⟩
    · rcases assertDictMatchList_error h with h | ⟨h, k, v, h1, h2⟩
      · exact Or.inl h
      · exact Or.inr ⟨h, d', k, v, rfl, h1, h2⟩
    · cases h

theorem shapeCheck_ok_iff {m : TMat ℝ} {r c : List κ} {rd cd : Dict κ ℤ} (hr : Labels r rd) (hc : Labels c cd) :
    shapeCheck m r c rd cd = .ok () ↔ m.nr = r.length ∧ (c ≠ [] → m.nc = c.length) := by
  unfold shapeCheck assertShapeConsistent
  rw [hr.len, hc.len, ← List.length_pos_iff]
  split
  · constructor
    · intro h; cases h
    · omega
  · split
    · constructor
      · intro h; cases h
      · rintro ⟨_, h2⟩; omega
    · simp only [true_iff]; omega

theorem shapeCheck_error {m : TMat ℝ} {r c : List κ} {rd cd : Dict κ ℤ} {e : PyErr}
    (h : shapeCheck m r c rd cd = .error e) : e = .valueError := by
  unfold shapeCheck assertShapeConsistent at h
  split at h
  · injection h with h; exact h.symm
  · split at h
    · injection h with h; exact h.symm
    · cases h

theorem new_eq_ok {m : TMat ℝ} {id2row id2col : List κ} {row2id col2id : Option (Dict κ ℤ)} {ops : List (Op κ)}
    {sh : Option (List ℕ)} {s : Space κ} (h : new m id2row id2col row2id col2id ops sh = .ok s) :
    s.mat = m ∧ s.id2row = id2row ∧ s.id2col = id2col ∧ s.ops = ops ∧ s.elemShape = sh.getD [m.nc] ∧
    resolveMap id2row row2id = .ok s.row2id ∧ resolveMap id2col col2id = .ok s.col2id ∧ s.WF := by
  simp only [new, bind_eq_ok] at h
  obtain ⟨r, hr, c, hc, u, hs, h⟩ := h
  have hr' := resolveMap_eq_ok hr
  have hc' := resolveMap_eq_ok hc
  obtain ⟨h1, h2⟩ := (shapeCheck_ok_iff hr'.1 hc'.1).1 hs
  cases sh with
  | none =>
    simp only at h
    obtain rfl := ok_inj h
    exact ⟨rfl, rfl, rfl, rfl, rfl, hr, hc, ⟨hr'.1, hc'.1, h1, h2, by simp⟩⟩
  | some sh =>
    simp only at h
    split at h
    · cases h
    · rename_i hp
      obtain rfl := ok_inj h
      exact ⟨rfl, rfl, rfl, rfl, rfl, hr, hc, ⟨hr'.1, hc'.1, h1, h2, by push Not at hp; exact hp⟩⟩

theorem new_ok {m : TMat ℝ} {id2row id2col : List κ} {row2id col2id : Option (Dict κ ℤ)} {ops : List (Op κ)}
    {sh : Option (List ℕ)} {r c : Dict κ ℤ} (hr : resolveMap id2row row2id = .ok r)
    (hc : resolveMap id2col col2id = .ok c) (h1 : m.nr = id2row.length) (h2 : id2col ≠ [] → m.nc = id2col.length)
    (h3 : ∀ s, sh = some s → s.prod = m.nc) :
    new m id2row id2col row2id col2id ops sh = .ok ⟨m, id2row, id2col, r, c, ops, sh.getD [m.nc]⟩ := by
  have hs := (shapeCheck_ok_iff (m := m) (resolveMap_eq_ok hr).1 (resolveMap_eq_ok hc).1).2 ⟨h1, h2⟩
  unfold new
  rw [hr, hc]
  simp only [ok_bind, hs]
  cases sh with
  | none => rfl
  | some s => simp [h3 s rfl]

/-- Row lookup in a well formed space. -/
theorem getRow_of_word {s : Space κ} (h : s.WF) {i : ℕ} {w : κ} (hw : s.id2row[i]? = some w) :
    s.getRow w = TMat.wrap s.mat.ty (s.mat.val.row i) := by
  obtain ⟨v, hv, hi⟩ := h.rows.lookup hw
  unfold getRow
  rw [Dict.getItem_eq_ok.2 hv]
  simp only [ok_bind, TMat.getRow]
  have : s.mat.nr = s.id2row.length := h.nrows
  rw [this, hi]

theorem getRow_missing {s : Space κ} (h : s.WF) {w : κ} (hw : w ∉ s.id2row) : s.getRow w = .error .keyError := by
  unfold getRow
  rw [Dict.getItem_eq_error.2 ⟨rfl, h.rows.lookup_none hw⟩]
  rfl

theorem rowIds_eq_ok {s : Space κ} (h : s.WF) {ws : List κ} {ks : List ℕ}
    (hw : List.Forall₂ (fun w k => s.id2row[k]? = some w) ws ks) :
    ∃ is, s.rowIds ws = .ok is ∧ List.Forall₂ (fun i k => pyIdx s.mat.nr i = some k) is ks := by
  induction hw with
  | nil => exact ⟨[], rfl, .nil⟩
  | cons hwk _ ih =>
    obtain ⟨is, h1, h2⟩ := ih
    obtain ⟨v, hv, hi⟩ := h.rows.lookup hwk
    refine ⟨v :: is, ?_, .cons (by rw [show s.mat.nr = _ from h.nrows]; exact hi) h2⟩
    simp [rowIds, Dict.getItem_eq_ok.2 hv, h1]

theorem rowIds_missing {s : Space κ} (h : s.WF) {ws : List κ} (hw : ∃ w ∈ ws, w ∉ s.id2row) :
    s.rowIds ws = .error .keyError := by
  induction ws with
  | nil => simp at hw
  | cons w ws ih =>
    unfold rowIds
    by_cases hm : w ∈ s.id2row
    · have : ∃ w ∈ ws, w ∉ s.id2row := by
        obtain ⟨x, hx, hx'⟩ := hw
        rcases List.mem_cons.1 hx with rfl | hx
        · exact absurd hm hx'
        · exact ⟨x, hx, hx'⟩
      obtain ⟨v, hv⟩ := (h.rows.keys w).1 hm
      rw [Dict.getItem_eq_ok.2 hv, ih this]
      rfl
    · rw [Dict.getItem_eq_error.2 ⟨rfl, h.rows.lookup_none hm⟩]
      rfl

/-- Every list of words of the space has a list of positions. -/
theorem positions {s : Space κ} {ws : List κ} (hw : ∀ w ∈ ws, w ∈ s.id2row) :
    ∃ ks : List ℕ, List.Forall₂ (fun w k => s.id2row[k]? = some w) ws ks := by
  induction ws with
  | nil => exact ⟨[], .nil⟩
  | cons w ws ih =>
    obtain ⟨ks, hks⟩ := ih (fun x hx => hw x (List.mem_cons_of_mem _ hx))
    obtain ⟨k, hk⟩ := List.mem_iff_getElem?.1 (hw w List.mem_cons_self)
    exact ⟨k :: ks, .cons hk hks⟩

end Space

/-- Column labels picked out of a list. -/
theorem pickLabels_eq_ok {labels : List κ} {is : List ℕ} {out : List κ} (h : Space.pickLabels labels is = .ok out) :
    List.Forall₂ (fun i x => labels[i]? = some x) is out := by
  induction is generalizing out with
  | nil =>
    simp only [Space.pickLabels] at h
    obtain rfl := ok_inj h
    exact .nil
  | cons i is ih =>
    simp only [Space.pickLabels, bind_eq_ok, pure_eq_ok] at h
    obtain ⟨x, hx, xs, hxs, h⟩ := h
    obtain rfl := ok_inj h
    exact .cons (pyGet_nat_iff.1 hx) (ih hxs)

theorem pickLabels_ok {labels : List κ} {is : List ℕ} (h : ∀ i ∈ is, i < labels.length) :
    ∃ out, Space.pickLabels labels is = .ok out := by
  induction is with
  | nil => exact ⟨[], rfl⟩
  | cons i is ih =>
    obtain ⟨out, ho⟩ := ih (fun j hj => h j (List.mem_cons_of_mem _ hj))
    have hi := h i List.mem_cons_self
    refine ⟨labels[i] :: out, ?_⟩
    simp only [Space.pickLabels]
    rw [pyGet_nat (List.getElem?_eq_getElem hi), ho]
    rfl

theorem forall₂_labels_nodup {labels : List κ} (hn : labels.Nodup) {is : List ℕ} (hi : is.Nodup) {out : List κ}
    (h : List.Forall₂ (fun i x => labels[i]? = some x) is out) : out.Nodup := by
  induction h with
  | nil => exact List.nodup_nil
  | @cons i x is out hix hrest ih =>
    rw [List.nodup_cons] at hi ⊢
    refine ⟨fun hx => hi.1 ?_, ih hi.2⟩
    obtain ⟨k, hk⟩ := List.mem_iff_getElem?.1 hx
    have hlen := hrest.length_eq
    have hk' : k < is.length := by
      rw [hlen]
      by_contra hc
      rw [List.getElem?_eq_none (by omega)] at hk
      cases hk
    have hj := List.forall₂_iff_get.1 hrest |>.2 k hk' (by omega)
    simp only [List.get_eq_getElem] at hj
    rw [List.getElem?_eq_getElem (by omega)] at hk
    injection hk with hk
    rw [hk] at hj
    have hlt : i < labels.length := by
      by_contra hc
      rw [List.getElem?_eq_none (by omega)] at hix
      cases hix
    have : i = is[k] := (List.getElem?_inj hlt hn).1 (hix.trans hj.symm)
    rw [this]
    exact List.getElem_mem hk'

end Dissect
