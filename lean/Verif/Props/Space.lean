import Verif.Lemmas.Space
import Verif.Lemmas.Sort
import Verif.Props.Matrix

/-!
# Properties of `Space`: construction, lookup, stacking, transformation (C01, C03, C04, C05, C07, C72, C73)
-/

namespace Dissect
open Finset
variable {κ : Type} [DecidableEq κ]

/-! ## Specification -/

/-- The arguments of the constructor fit together. -/
structure ConsistentInput (m : TMat ℝ) (id2row id2col : List κ) (row2id col2id : Option (Dict κ ℤ))
    (sh : Option (List ℕ)) : Prop where
  rowsDistinct : id2row.Nodup
  colsDistinct : id2col.Nodup
  rowMap : ∀ d, row2id = some d → Labels id2row d
  colMap : ∀ d, col2id = some d → Labels id2col d
  nrows : m.nr = id2row.length
  ncols : id2col ≠ [] → m.nc = id2col.length
  shape : ∀ sh', sh = some sh' → sh'.prod = m.nc

/-- Some value stored in a supplied dictionary is not a Python index of the label list. -/
def OutOfRange (l : List κ) (d : Option (Dict κ ℤ)) : Prop :=
  ∃ d' k v, d = some d' ∧ d'.get? k = some v ∧ ¬ (-(l.length : ℤ) ≤ v ∧ v < l.length)

theorem pyIdx_none {n : ℕ} {v : ℤ} (h : pyIdx n v = none) : ¬ (-(n : ℤ) ≤ v ∧ v < n) := by
  unfold pyIdx at h
  split at h
  · cases h
  · split at h
    · cases h
    · omega

/-! ## C01 -/

/-- **C01** the constructor succeeds exactly on consistent arguments. -/
theorem C01_accepts_iff (m : TMat ℝ) (id2row id2col : List κ) (row2id col2id : Option (Dict κ ℤ)) (ops : List (Op κ))
    (sh : Option (List ℕ)) :
    (∃ s, Space.new m id2row id2col row2id col2id ops sh = .ok s) ↔
      ConsistentInput m id2row id2col row2id col2id sh := by
  constructor
  · rintro ⟨s, h⟩
    have h' := h
    obtain ⟨h1, h2, h3, _, h5, h6, h7, hwf⟩ := Space.new_eq_ok h
    refine ⟨h2 ▸ hwf.rows.nodup, h3 ▸ hwf.cols.nodup, ?_, ?_, by rw [← h1, ← h2]; exact hwf.nrows,
      by rw [← h1, ← h3]; exact hwf.ncols, ?_⟩
    · intro d hd
      have := (Space.resolveMap_eq_ok h6).2 d hd
      exact this ▸ (Space.resolveMap_eq_ok h6).1
    · intro d hd
      have := (Space.resolveMap_eq_ok h7).2 d hd
      exact this ▸ (Space.resolveMap_eq_ok h7).1
    · intro sh' hs
      have := hwf.shape
      rw [h5, hs, h1] at this
      exact this
  · intro h
    obtain ⟨r, hr⟩ : ∃ r, Space.resolveMap id2row row2id = .ok r := by
      cases row2id with
      | none => exact Space.resolveMap_none h.rowsDistinct
      | some d => exact ⟨d, Space.resolveMap_some (h.rowMap d rfl)⟩
    obtain ⟨c, hc⟩ : ∃ r, Space.resolveMap id2col col2id = .ok r := by
      cases col2id with
      | none => exact Space.resolveMap_none h.colsDistinct
      | some d => exact ⟨d, Space.resolveMap_some (h.colMap d rfl)⟩
    exact ⟨_, Space.new_ok hr hc h.nrows h.ncols h.shape⟩

/-- **C01** an accepted space stores the arguments, is well formed, and — when no dictionary was supplied — maps every
label to its position. -/
theorem C01_result (m : TMat ℝ) (id2row id2col : List κ) (row2id col2id : Option (Dict κ ℤ)) (ops : List (Op κ))
    (sh : Option (List ℕ)) (s : Space κ) (h : Space.new m id2row id2col row2id col2id ops sh = .ok s) :
    s.WF ∧ s.mat = m ∧ s.id2row = id2row ∧ s.id2col = id2col ∧ s.ops = ops ∧
    s.elemShape = (match sh with | none => [m.nc] | some l => l) ∧
    (∀ d, row2id = some d → s.row2id = d) ∧ (∀ d, col2id = some d → s.col2id = d) ∧
    (row2id = none → ∀ (i : ℕ) w, id2row[i]? = some w → s.row2id.get? w = some (i : ℤ)) ∧
    (col2id = none → ∀ (i : ℕ) w, id2col[i]? = some w → s.col2id.get? w = some (i : ℤ)) := by
  obtain ⟨h1, h2, h3, h4, h5, h6, h7, hwf⟩ := Space.new_eq_ok h
  refine ⟨hwf, h1, h2, h3, h4, ?_, (Space.resolveMap_eq_ok h6).2, (Space.resolveMap_eq_ok h7).2, ?_, ?_⟩
  · rw [h5]; cases sh <;> rfl
  · rintro rfl; exact (list2dict_ok h6).2.2
  · rintro rfl; exact (list2dict_ok h7).2.2

/-- **C01** a rejected construction raises `ValueError`, or `IndexError` in the one case of a supplied dictionary that
points outside its label list. -/
theorem C01_rejects (m : TMat ℝ) (id2row id2col : List κ) (row2id col2id : Option (Dict κ ℤ)) (ops : List (Op κ))
    (sh : Option (List ℕ)) (e : PyErr) (h : Space.new m id2row id2col row2id col2id ops sh = .error e) :
    e = .valueError ∨ (e = .indexError ∧ (OutOfRange id2row row2id ∨ OutOfRange id2col col2id)) := by
  simp only [Space.new, bind_eq_error] at h
  rcases h with h | ⟨r, _, h | ⟨c, _, h | ⟨_, _, h⟩⟩⟩
  · rcases Space.resolveMap_error h with h | ⟨h, d', k, v, h1, h2, h3⟩
    · exact Or.inl h
    · exact Or.inr ⟨h, Or.inl ⟨d', k, v, h1, h2, pyIdx_none h3⟩⟩
  · rcases Space.resolveMap_error h with h | ⟨h, d', k, v, h1, h2, h3⟩
    · exact Or.inl h
    · exact Or.inr ⟨h, Or.inr ⟨d', k, v, h1, h2, pyIdx_none h3⟩⟩
  · exact Or.inl (Space.shapeCheck_error h)
  · left
    cases sh with
    | none => cases h
    | some l =>
      simp only at h
      split at h
      · injection h with h; exact h.symm
      · cases h

/-- In a well formed space the two row structures are mutually inverse (as Python lookups). -/
theorem C01_maps_inverse (s : Space κ) (h : s.WF) :
    (∀ w v, s.row2id.get? w = some v → pyGet s.id2row v = .ok w) ∧
    (∀ w (i : ℕ), s.id2row[i]? = some w → ∃ v, s.row2id.get? w = some v ∧ pyIdx s.id2row.length v = some i) ∧
    (∀ w v, s.col2id.get? w = some v → pyGet s.id2col v = .ok w) ∧
    (∀ w (i : ℕ), s.id2col[i]? = some w → ∃ v, s.col2id.get? w = some v ∧ pyIdx s.id2col.length v = some i) :=
  ⟨h.rows.index, fun _ _ hw => h.rows.lookup hw, h.cols.index, fun _ _ hw => h.cols.lookup hw⟩

/-! A concrete space: two words, three columns. -/

/-- A 2×3 matrix used in the examples. -/
noncomputable def exMat (ty : MTy) : TMat ℝ := ⟨ty, Mat.of 2 3 (fun i j => (i + 2 * j : ℕ))⟩

theorem ex_consistent (ty : MTy) :
    ConsistentInput (exMat ty) ["dog", "cat"] ["a", "b", "c"] none none (some [3, 1]) :=
  ⟨by simp, by simp, by simp, by simp, rfl, fun _ => rfl, by
    rintro _ h; obtain rfl := Option.some.inj h; rfl⟩

/-- The hypotheses of the theorems about well formed spaces are met by a concrete space. -/
theorem ex_space (ty : MTy) : ∃ s : Space String, s.WF ∧ s.mat = exMat ty ∧ s.id2row = ["dog", "cat"] ∧
    s.id2col = ["a", "b", "c"] ∧ s.ops = [] ∧ s.elemShape = [3, 1] := by
  obtain ⟨s, hs⟩ := (C01_accepts_iff _ _ _ _ _ [] _).2 (ex_consistent ty)
  obtain ⟨h0, h1, h2, h3, h4, h5, _⟩ := C01_result _ _ _ _ _ _ _ s hs
  exact ⟨s, h0, h1, h2, h3, h4, h5⟩

/-- A 2×3 space without column labels and with a plain element shape. -/
theorem ex_space_plain (ty : MTy) : ∃ s : Space String, s.WF ∧ s.mat = exMat ty ∧ s.id2row = ["dog", "cat"] ∧
    s.id2col = [] ∧ s.ops = [] ∧ s.elemShape = [3] := by
  obtain ⟨s, hs⟩ := (C01_accepts_iff (exMat ty) ["dog", "cat"] ([] : List String) none none [] none).2
    ⟨by simp, by simp, by simp, by simp, rfl, by simp, by simp⟩
  obtain ⟨h0, h1, h2, h3, h4, h5, _⟩ := C01_result _ _ _ _ _ _ _ s hs
  exact ⟨s, h0, h1, h2, h3, h4, h5⟩

/-! ## C03 -/

/-- **C03** `get_row` returns exactly the row at the position of the word. -/
theorem C03_get_row (s : Space κ) (h : s.WF) (hne : 0 < s.mat.nc) (i : ℕ) (w : κ) (hw : s.id2row[i]? = some w) :
    ∃ r, s.getRow w = .ok r ∧ r.ty = s.mat.ty ∧ r.nr = 1 ∧ r.nc = s.mat.nc ∧
      ∀ j, r.val.get 0 j = s.mat.val.get i j := by
  rw [Space.getRow_of_word h hw]
  rw [TMat.wrap_ok (A := s.mat.val.row i) (fun _ => ⟨by simp, hne⟩)]
  exact ⟨_, rfl, rfl, rfl, rfl, fun j => rfl⟩

/-- **C03** an unknown word raises `KeyError`, a known one does not. -/
theorem C03_get_row_missing (s : Space κ) (h : s.WF) (w : κ) :
    s.getRow w = .error .keyError ↔ w ∉ s.id2row := by
  constructor
  · intro he hm
    obtain ⟨i, hi⟩ := List.mem_iff_getElem?.1 hm
    rw [Space.getRow_of_word h hi] at he
    unfold TMat.wrap at he
    split at he
    · split at he <;> cases he
    · cases he
  · exact Space.getRow_missing h

/-- **C03** `get_rows` returns the rows of the words asked for, in the order asked, with repetitions. -/
theorem C03_get_rows (s : Space κ) (h : s.WF) (hne : 0 < s.mat.nc) (ws : List κ) (hws : ws ≠ [])
    (hall : ∀ w ∈ ws, w ∈ s.id2row) :
    ∃ r, s.getRows ws = .ok r ∧ r.ty = s.mat.ty ∧ r.nr = ws.length ∧ r.nc = s.mat.nc ∧
      ∀ (p : ℕ) w (i : ℕ), ws[p]? = some w → s.id2row[i]? = some w →
        ∀ j, r.val.get p j = s.mat.val.get i j := by
  obtain ⟨ks, hks⟩ := Space.positions hall
  obtain ⟨is, h1, h2⟩ := Space.rowIds_eq_ok h hks
  unfold Space.getRows
  simp only [h1, ok_bind, TMat.getRows, TMat.normIdx_ok h2]
  have hlen : ks.length = ws.length := hks.length_eq.symm
  have hpos : 0 < ws.length := List.length_pos_iff.2 hws
  rw [TMat.wrap_ok (A := s.mat.val.selRows ks) (fun _ => ⟨by simp only [Mat.selRows_nr]; omega, hne⟩)]
  refine ⟨_, rfl, rfl, hlen, rfl, fun p w i hp hi j => ?_⟩
  have hp' : p < ws.length := by
    by_contra hc
    rw [List.getElem?_eq_none (by omega)] at hp; cases hp
  have hk := (List.forall₂_iff_get.1 hks).2 p hp' (by omega)
  simp only [List.get_eq_getElem] at hk
  rw [List.getElem?_eq_getElem hp'] at hp
  injection hp with hp
  rw [hp] at hk
  have hik : i = ks[p] := by
    have hlt : i < s.id2row.length := by
      by_contra hc
      rw [List.getElem?_eq_none (by omega)] at hi; cases hi
    exact (List.getElem?_inj hlt h.rows.nodup).1 (hi.trans hk.symm)
  simp only
  rw [Mat.selRows_get_some (r := i)]
  rw [List.getElem?_eq_getElem (by omega), hik]

/-- **C03** `get_rows` raises `KeyError` exactly when some word is unknown. -/
theorem C03_get_rows_missing (s : Space κ) (h : s.WF) (ws : List κ) :
    s.getRows ws = .error .keyError ↔ ∃ w ∈ ws, w ∉ s.id2row := by
  constructor
  · intro he
    by_contra hc
    push Not at hc
    obtain ⟨ks, hks⟩ := Space.positions hc
    obtain ⟨is, h1, h2⟩ := Space.rowIds_eq_ok h hks
    simp only [Space.getRows, h1, ok_bind, TMat.getRows, TMat.normIdx_ok h2] at he
    unfold TMat.wrap at he
    split at he
    · split at he <;> cases he
    · cases he
  · intro hw
    unfold Space.getRows
    rw [Space.rowIds_missing h hw]
    rfl

/-- **C03** `get_rows(ws)` stacks `get_row(w)` for `w` in `ws`. -/
theorem C03_get_rows_eq_get_row (s : Space κ) (h : s.WF) (hne : 0 < s.mat.nc) (ws : List κ) (r : TMat ℝ)
    (hr : s.getRows ws = .ok r) (hws : ws ≠ []) (p : ℕ) (w : κ) (hp : ws[p]? = some w) :
    ∃ v, s.getRow w = .ok v ∧ v.nc = r.nc ∧ ∀ j, v.val.get 0 j = r.val.get p j := by
  have hall : ∀ w ∈ ws, w ∈ s.id2row := by
    by_contra hc
    push Not at hc
    rw [(C03_get_rows_missing s h ws).2 hc] at hr
    cases hr
  obtain ⟨r', hr', _, _, hnc, hget⟩ := C03_get_rows s h hne ws hws hall
  rw [hr] at hr'
  obtain rfl := ok_inj hr'
  obtain ⟨i, hi⟩ := List.mem_iff_getElem?.1 (hall w (List.mem_of_getElem? hp))
  obtain ⟨v, hv, _, _, hvc, hvg⟩ := C03_get_row s h hne i w hi
  exact ⟨v, hv, hvc.trans hnc.symm, fun j => by rw [hvg, hget p w i hp hi]⟩

example (ty : MTy) : ∃ s : Space String, s.WF ∧ 0 < s.mat.nc ∧ (∀ w ∈ ["cat", "dog", "cat"], w ∈ s.id2row) ∧
    "horse" ∉ s.id2row := by
  obtain ⟨s, h, hm, hr, _⟩ := ex_space ty
  exact ⟨s, h, by rw [hm]; simp [exMat, TMat.nc], by rw [hr]; simp, by rw [hr]; simp⟩

/-! ## C04 -/

/-- Appending labels to a consistent pair whose dictionary holds plain positions. -/
theorem Labels.append {l l' : List κ} {d d' : Dict κ ℤ} (h : Labels l d)
    (hpos : ∀ w v, d.get? w = some v → 0 ≤ v) (ha : addItemsToDict d l' = (d', .ok ())) :
    Labels (l ++ l') d' ∧ (∀ w v, d'.get? w = some v → 0 ≤ v) := by
  obtain ⟨h1, h2, h3, h4, h5⟩ := addItems_ok ha
  have hlen := h.len
  have hin : ∀ w v, d.get? w = some v → pyGet (l ++ l') v = .ok w := by
    intro w v hv
    obtain ⟨k, hk1, hk2⟩ := pyGet_eq_ok.1 (h.index w v hv)
    have hv0 := hpos w v hv
    have : v = (k : ℤ) := by
      unfold pyIdx at hk1
      split at hk1
      · injection hk1 with hk1; omega
      · split at hk1
        · omega
        · cases hk1
    rw [this]
    exact pyGet_nat (getElem?_append_some hk2)
  have hdis : ∀ w ∈ l', w ∉ l := fun w hw hwl => by
    obtain ⟨v, hv⟩ := (h.keys w).1 hwl
    rw [h2 w hw] at hv; cases hv
  have hcase : ∀ w v, d'.get? w = some v → (∃ i : ℕ, l'[i]? = some w ∧ v = ((l.length + i : ℕ) : ℤ)) ∨
      (w ∉ l' ∧ d.get? w = some v) := by
    intro w v hv
    by_cases hw : w ∈ l'
    · obtain ⟨i, hi⟩ := List.mem_iff_getElem?.1 hw
      refine Or.inl ⟨i, hi, ?_⟩
      rw [h4 i w hi, hlen] at hv
      exact (Option.some.inj hv).symm
    · rw [h5 w hw] at hv
      exact Or.inr ⟨hw, hv⟩
  refine ⟨⟨?_, ?_, ?_⟩, ?_⟩
  · rw [List.nodup_append]
    exact ⟨h.nodup, h1, fun a ha b hb hab => hdis b hb (hab ▸ ha)⟩
  · intro w
    rw [List.mem_append]
    constructor
    · rintro (hw | hw)
      · obtain ⟨v, hv⟩ := (h.keys w).1 hw
        exact ⟨v, by rw [h5 w (fun hw' => hdis w hw' hw)]; exact hv⟩
      · obtain ⟨i, hi⟩ := List.mem_iff_getElem?.1 hw
        exact ⟨_, h4 i w hi⟩
    · rintro ⟨v, hv⟩
      rcases hcase w v hv with ⟨i, hi, _⟩ | ⟨_, hv'⟩
      · exact Or.inr (List.mem_of_getElem? hi)
      · exact Or.inl ((h.keys w).2 ⟨v, hv'⟩)
  · intro w v hv
    rcases hcase w v hv with ⟨i, hi, rfl⟩ | ⟨_, hv'⟩
    · apply pyGet_nat
      rw [List.getElem?_append_right (by omega)]
      simpa using hi
    · exact hin w v hv'
  · intro w v hv
    rcases hcase w v hv with ⟨i, hi, rfl⟩ | ⟨_, hv'⟩
    · omega
    · exact hpos w v hv'

/-- The row dictionary holds plain (non-negative) positions, as every dictionary built by the library does. -/
def Space.PlainRows (s : Space κ) : Prop := ∀ w v, s.row2id.get? w = some v → 0 ≤ v

theorem resolve_two (s t : TMat ℝ) (hs : 0 < s.nr ∧ 0 < s.nc) (ht : 0 < t.nr ∧ 0 < t.nc) :
    ∃ ty, TMat.resolveTypeConflict [s, t] (TMat.typeOfLargest [s, t]) = .ok [⟨ty, s.val⟩, ⟨ty, t.val⟩] := by
  by_cases hty : s.ty = t.ty
  · refine ⟨s.ty, ?_⟩
    have : TMat.typeConflict [s, t] = false := by simp [TMat.typeConflict, hty]
    unfold TMat.resolveTypeConflict
    rw [this]
    simp only [Bool.false_eq_true, if_false]
    have h2 : t = ⟨s.ty, t.val⟩ := by rw [hty]
    rw [← h2]
  · obtain ⟨ty, hl⟩ : ∃ ty, TMat.typeOfLargest [s, t] = some ty := by
      have : 0 < s.val.nr * s.val.nc := Nat.mul_pos hs.1 hs.2
      unfold TMat.typeOfLargest
      simp only [List.foldl_cons, List.foldl_nil, TMat.nr, TMat.nc, gt_iff_lt, this, if_true]
      split <;> exact ⟨_, rfl⟩
    refine ⟨ty, ?_⟩
    have : TMat.typeConflict [s, t] = true := by
      simp [TMat.typeConflict, Ne.symm hty]
    unfold TMat.resolveTypeConflict
    rw [this, hl]
    simp only [if_true, TMat.toTypeAll, TMat.toType_ok ty (fun _ => hs : s.NE), TMat.toType_ok ty (fun _ => ht : t.NE)]

/-- **C04** stacking succeeds exactly when the columns agree and no row label is shared. -/
theorem C04_accepts_iff (s1 s2 : Space κ) (h1 : s1.WF) (h2 : s2.WF) (hp : s1.PlainRows)
    (hne1 : 0 < s1.mat.nr ∧ 0 < s1.mat.nc) (hne2 : 0 < s2.mat.nr ∧ 0 < s2.mat.nc) :
    (∃ s, Space.vstack s1 s2 = .ok s) ↔
      s1.mat.nc = s2.mat.nc ∧ s1.id2col = s2.id2col ∧ ∀ w ∈ s2.id2row, w ∉ s1.id2row := by
  constructor
  · rintro ⟨s, h⟩
    unfold Space.vstack at h
    split at h
    · cases h
    · split at h
      · cases h
      · rename_i hc hl
        push Not at hc hl
        refine ⟨hc, hl, fun w hw hw1 => ?_⟩
        simp only [bind_eq_ok] at h
        obtain ⟨_, ha, _⟩ := h
        have ha' : addItemsToDict s1.row2id s2.id2row = ((addItemsToDict s1.row2id s2.id2row).1, .ok ()) :=
          Prod.ext rfl ha
        obtain ⟨v, hv⟩ := (h1.rows.keys w).1 hw1
        rw [(addItems_ok ha').2.1 w hw] at hv
        cases hv
  · rintro ⟨hc, hl, hd⟩
    obtain ⟨d, hadd⟩ := addItems_of_disjoint (d := s1.row2id) h2.rows.nodup
      (fun w hw => h1.rows.lookup_none (hd w hw))
    obtain ⟨ty, hres⟩ := resolve_two s1.mat s2.mat hne1 hne2
    obtain ⟨hlab, _⟩ := h1.rows.append hp hadd
    unfold Space.vstack
    rw [if_neg (by push Not; exact hc), if_neg (by push Not; exact hl), hadd]
    simp only [ok_bind, hres, TMat.vstack, TMat.nc, if_true]
    have hcv : s1.mat.val.nc = s2.mat.val.nc := hc
    rw [if_pos hcv, TMat.wrap_ok (A := s1.mat.val.vstack s2.mat.val) (fun _ => ⟨by simp only [Mat.vstack_nr]; have := hne1.1; simp only [TMat.nr] at this; omega, hne1.2⟩)]
    simp only [ok_bind]
    refine ⟨_, Space.new_ok (Space.resolveMap_some hlab) (Space.resolveMap_some h1.cols) ?_ ?_ (by simp)⟩
    · have e1 := h1.nrows
      have e2 := h2.nrows
      simp only [TMat.nr] at e1 e2
      simp only [TMat.nr, Mat.vstack_nr, List.length_append, e1, e2]
    · intro hne
      exact h1.ncols hne

/-- **C04** the stacked space: labels are concatenated, the columns are kept, and every word keeps its own vector. -/
theorem C04_words_keep_vectors (s1 s2 s : Space κ) (h1 : s1.WF) (h2 : s2.WF) (h : Space.vstack s1 s2 = .ok s) :
    s.WF ∧ s.id2row = s1.id2row ++ s2.id2row ∧ s.id2col = s1.id2col ∧ s.ops = [] ∧ s.mat.nc = s1.mat.nc ∧
    (∀ i w, s1.id2row[i]? = some w → ∃ i', s.id2row[i']? = some w ∧
      ∀ j, s.mat.val.get i' j = s1.mat.val.get i j) ∧
    (∀ i w, s2.id2row[i]? = some w → ∃ i', s.id2row[i']? = some w ∧
      ∀ j, s.mat.val.get i' j = s2.mat.val.get i j) := by
  unfold Space.vstack at h
  split at h
  · cases h
  · split at h
    · cases h
    · rename_i hc hl
      push Not at hc hl
      simp only [bind_eq_ok] at h
      obtain ⟨_, _, l, hres, h⟩ := h
      have hsame := (C06_resolve_type_conflict _ _ _ hres).1
      cases hsame with
      | cons hm1 hrest =>
      cases hrest with
      | cons hm2 hrest =>
      cases hrest
      rename_i m1 m2
      simp only [bind_eq_ok] at h
      obtain ⟨m, hm, h⟩ := h
      obtain ⟨e1, e2, e3, e4, e5, e6, e7, hwf⟩ := Space.new_eq_ok h
      unfold TMat.vstack at hm
      split at hm
      · split at hm
        · rename_i hcc
          obtain ⟨rfl, _⟩ := TMat.wrap_eq_ok hm
          obtain ⟨hr1, hc1, hv1⟩ := hm1
          obtain ⟨hr2, hc2, hv2⟩ := hm2
          simp only [TMat.nr, TMat.nc] at hr1 hc1 hr2 hc2 hcc hv1 hv2
          have hn1 := h1.nrows
          have hn2 := h2.nrows
          simp only [TMat.nr] at hn1 hn2
          have g1 : ∀ i j, i < s1.mat.val.nr → m1.val.get i j = s1.mat.val.get i j := by
            intro i j hi
            by_cases hj : j < m1.val.nc
            · exact hv1 i j (by omega) hj
            · rw [m1.val.get_col_oob i (by omega), s1.mat.val.get_col_oob i (by omega)]
          have g2 : ∀ i j, i < s2.mat.val.nr → m2.val.get i j = s2.mat.val.get i j := by
            intro i j hi
            by_cases hj : j < m2.val.nc
            · exact hv2 i j (by omega) hj
            · rw [m2.val.get_col_oob i (by omega), s2.mat.val.get_col_oob i (by omega)]
          refine ⟨hwf, e2, e3, e4, by rw [e1]; exact hc1, ?_, ?_⟩
          · intro i w hw
            have hi : i < s1.id2row.length := by
              by_contra hcon
              rw [List.getElem?_eq_none (by omega)] at hw; cases hw
            refine ⟨i, by rw [e2]; exact getElem?_append_some hw, fun j => ?_⟩
            rw [e1, Mat.vstack_get hcc, if_pos (by omega), g1 i j (by omega)]
          · intro i w hw
            have hi : i < s2.id2row.length := by
              by_contra hcon
              rw [List.getElem?_eq_none (by omega)] at hw; cases hw
            refine ⟨s1.id2row.length + i, ?_, fun j => ?_⟩
            · rw [e2, List.getElem?_append_right (by omega)]
              simpa using hw
            · rw [e1, Mat.vstack_get hcc, if_neg (by omega)]
              rw [← g2 i j (by omega)]
              congr 1
              omega
        · cases hm
      · cases hm

/-- **C04** mismatching columns or a shared row label raise `ValueError`. -/
theorem C04_rejects (s1 s2 : Space κ) (h1 : s1.WF)
    (h : s1.mat.nc ≠ s2.mat.nc ∨ s1.id2col ≠ s2.id2col ∨ ∃ w ∈ s2.id2row, w ∈ s1.id2row) :
    Space.vstack s1 s2 = .error .valueError := by
  unfold Space.vstack
  split
  · rfl
  · split
    · rfl
    · rename_i hc hl
      push Not at hc hl
      have hw : ∃ w ∈ s2.id2row, w ∈ s1.id2row := by
        rcases h with h | h | h
        · exact absurd hc h
        · exact absurd hl h
        · exact h
      obtain ⟨w, hw2, hw1⟩ := hw
      cases ha : addItemsToDict s1.row2id s2.id2row with
      | mk d out =>
        cases out with
        | error e =>
          obtain rfl := addItems_error ha
          rfl
        | ok u =>
          exfalso
          obtain ⟨v, hv⟩ := (h1.rows.keys w).1 hw1
          rw [(addItems_ok ha).2.1 w hw2] at hv
          cases hv

/-- **C04** in terms of lookup: every word of either space has the same vector in the stacked space. -/
theorem C04_lookup (s1 s2 s : Space κ) (h1 : s1.WF) (h2 : s2.WF) (h : Space.vstack s1 s2 = .ok s)
    (hne : 0 < s1.mat.nc) (w : κ) (src : Space κ) (hsrc : src = s1 ∨ src = s2) (hw : w ∈ src.id2row) :
    ∃ v v', s.getRow w = .ok v ∧ src.getRow w = .ok v' ∧ v.nc = v'.nc ∧ ∀ j, v.val.get 0 j = v'.val.get 0 j := by
  obtain ⟨hwf, _, _, _, hnc, g1, g2⟩ := C04_words_keep_vectors s1 s2 s h1 h2 h
  have hcc : s1.mat.nc = s2.mat.nc := by
    unfold Space.vstack at h
    split at h
    · cases h
    · rename_i hc; push Not at hc; exact hc
  have key : ∀ src : Space κ, src.WF → src.mat.nc = s1.mat.nc → w ∈ src.id2row →
      (∀ i w, src.id2row[i]? = some w → ∃ i', s.id2row[i']? = some w ∧
        ∀ j, s.mat.val.get i' j = src.mat.val.get i j) →
      ∃ v v', s.getRow w = .ok v ∧ src.getRow w = .ok v' ∧ v.nc = v'.nc ∧ ∀ j, v.val.get 0 j = v'.val.get 0 j := by
    intro src hs hc hw hg
    obtain ⟨i, hi⟩ := List.mem_iff_getElem?.1 hw
    obtain ⟨i', hi', hgi⟩ := hg i w hi
    obtain ⟨v, hv, _, _, hvc, hvg⟩ := C03_get_row s hwf (by rw [hnc]; exact hne) i' w hi'
    obtain ⟨v', hv', _, _, hvc', hvg'⟩ := C03_get_row src hs (by rw [hc]; exact hne) i w hi
    exact ⟨v, v', hv, hv', by rw [hvc, hvc', hnc, hc], fun j => by rw [hvg, hvg', hgi]⟩
  rcases hsrc with rfl | rfl
  · exact key _ h1 rfl hw g1
  · exact key _ h2 hcc.symm hw g2

end Dissect
