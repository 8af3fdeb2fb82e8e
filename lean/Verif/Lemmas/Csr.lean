import Verif.Model.Csr

/-! Helper lemmas about the stored arrays of a sparse matrix. -/

namespace Dissect
open Finset

namespace Csr
variable {K : Type}

section AddMonoid
variable [AddMonoid K]

@[simp] theorem valueAt_nil (j : ℕ) : valueAt ([] : List (ℕ × K)) j = 0 := rfl

theorem valueAt_cons (e : ℕ × K) (l : List (ℕ × K)) (j : ℕ) :
    valueAt (e :: l) j = (if e.1 = j then e.2 else 0) + valueAt l j := by
  unfold valueAt
  by_cases h : e.1 = j <;> simp [h]

theorem valueAt_of_not_mem {l : List (ℕ × K)} {j : ℕ} (h : j ∉ l.map Prod.fst) : valueAt l j = 0 := by
  induction l with
  | nil => rfl
  | cons e l ih =>
    simp only [List.map_cons, List.mem_cons, not_or] at h
    rw [valueAt_cons, ih h.2, if_neg (fun he => h.1 he.symm), add_zero]

theorem valueAt_mem {l : List (ℕ × K)} (hn : (l.map Prod.fst).Nodup) {e : ℕ × K} (he : e ∈ l) :
    valueAt l e.1 = e.2 := by
  induction l with
  | nil => simp at he
  | cons a l ih =>
    simp only [List.map_cons, List.nodup_cons] at hn
    rw [valueAt_cons]
    rcases List.mem_cons.1 he with rfl | he
    · rw [if_pos rfl, valueAt_of_not_mem hn.1, add_zero]
    · have hne : a.1 ≠ e.1 := by
        intro h
        exact hn.1 (h ▸ List.mem_map_of_mem he)
      rw [if_neg hne, zero_add, ih hn.2 he]

/-- Mapping the stored values by a function fixing `0` maps every cell. -/
theorem valueAt_map {f : K → K} (hf : f 0 = 0) {l : List (ℕ × K)} (hn : (l.map Prod.fst).Nodup) (j : ℕ) :
    valueAt (l.map (fun e => (e.1, f e.2))) j = f (valueAt l j) := by
  by_cases hj : j ∈ l.map Prod.fst
  · obtain ⟨e, he, rfl⟩ := List.mem_map.1 hj
    rw [valueAt_mem hn he]
    have hn' : ((l.map (fun e => (e.1, f e.2))).map Prod.fst).Nodup := by
      simpa [List.map_map, Function.comp_def] using hn
    have := valueAt_mem hn' (e := (e.1, f e.2)) (List.mem_map.2 ⟨e, he, rfl⟩)
    simpa using this
  · rw [valueAt_of_not_mem hj, hf]
    apply valueAt_of_not_mem
    simpa [List.map_map, Function.comp_def] using hj

theorem valueAt_filter_ne [DecidableEq K] (l : List (ℕ × K)) (j : ℕ) :
    valueAt (l.filter (fun e => decide (e.2 ≠ 0))) j = valueAt l j := by
  induction l with
  | nil => rfl
  | cons e l ih =>
    rw [List.filter_cons, valueAt_cons]
    by_cases he : e.2 = 0
    · simp only [he, ne_eq, not_true_eq_false, decide_false, Bool.false_eq_true, if_false, ite_self, zero_add]
      exact ih
    · simp only [ne_eq, he, not_false_eq_true, decide_true, if_true]
      rw [valueAt_cons]
      simp only [ne_eq] at ih
      rw [ih]

end AddMonoid

theorem sum_valueAt [AddCommMonoid K] {M : Type} [AddCommMonoid M] {f : K → M} (hf : f 0 = 0)
    {l : List (ℕ × K)} (hn : (l.map Prod.fst).Nodup) {n : ℕ} (hl : ∀ e ∈ l, e.1 < n) :
    ∑ j ∈ range n, f (valueAt l j) = (l.map (fun e => f e.2)).sum := by
  induction l with
  | nil => simp [hf]
  | cons e l ih =>
    simp only [List.map_cons, List.nodup_cons] at hn
    rw [List.map_cons, List.sum_cons, ← ih hn.2 (fun x hx => hl x (List.mem_cons_of_mem _ hx))]
    have hmem : e.1 ∈ range n := Finset.mem_range.2 (hl e (List.mem_cons_self ..))
    rw [← Finset.add_sum_erase _ _ hmem, ← Finset.add_sum_erase (range n) (fun j => f (valueAt l j)) hmem]
    rw [valueAt_cons, if_pos rfl, valueAt_of_not_mem hn.1, add_zero, hf, zero_add]
    congr 1
    refine Finset.sum_congr rfl (fun j hj => ?_)
    rw [valueAt_cons, if_neg (Finset.ne_of_mem_erase hj).symm, zero_add]

/-! ### rows of the arrays -/

theorem stored_length {c : Csr K} (h : c.WF) : c.stored.length = c.data.length := by
  unfold stored; simp [h.len_idx]

theorem ptr_le_len {c : Csr K} (h : c.WF) {i : ℕ} (hi : i ≤ c.nr) : c.ptr i ≤ c.data.length := by
  have key : ∀ k, k ≤ c.nr → c.ptr (c.nr - k) ≤ c.data.length := by
    intro k
    induction k with
    | zero => intro _; simp [h.ptr_last]
    | succ k ih =>
      intro hk
      have h1 := h.mono (c.nr - (k + 1)) (by omega)
      have h2 : c.nr - (k + 1) + 1 = c.nr - k := by omega
      rw [h2] at h1
      exact le_trans h1 (ih (by omega))
  have := key (c.nr - i) (by omega)
  rwa [Nat.sub_sub_self hi] at this

theorem ptr_mono {c : Csr K} (h : c.WF) {i j : ℕ} (hij : i ≤ j) (hj : j ≤ c.nr) : c.ptr i ≤ c.ptr j := by
  induction j with
  | zero => have : i = 0 := by omega
            subst this; exact le_rfl
  | succ j ih =>
    rcases Nat.lt_or_ge i (j + 1) with hlt | hge
    · exact le_trans (ih (by omega) (by omega)) (h.mono j (by omega))
    · have : i = j + 1 := by omega
      subst this; exact le_rfl

theorem rowList_sub_stored (c : Csr K) (i : ℕ) : ∀ e ∈ c.rowList i, e ∈ c.stored := by
  intro e he
  exact List.mem_of_mem_drop (List.mem_of_mem_take he)

theorem mem_rowList_lt {c : Csr K} (h : c.WF) {i : ℕ} : ∀ e ∈ c.rowList i, e.1 < c.nc := by
  intro e he
  have := rowList_sub_stored c i e he
  exact h.idx_lt e.1 (List.of_mem_zip this).1

/-- The rows, one after the other, are the stored pairs in storage order. -/
theorem flatMap_rowList_take {c : Csr K} (h : c.WF) : ∀ n, n ≤ c.nr →
    (List.range n).flatMap c.rowList = c.stored.take (c.ptr n) := by
  intro n
  induction n with
  | zero => intro _; simp [h.ptr_zero]
  | succ n ih =>
    intro hn
    rw [List.range_succ, List.flatMap_append, ih (by omega)]
    simp only [List.flatMap_cons, List.flatMap_nil, List.append_nil]
    unfold rowList
    have h1 := h.mono n (by omega)
    have : c.ptr (n + 1) = c.ptr n + (c.ptr (n + 1) - c.ptr n) := by omega
    conv_rhs => rw [this, List.take_add]

theorem flatMap_rowList {c : Csr K} (h : c.WF) : (List.range c.nr).flatMap c.rowList = c.stored := by
  rw [flatMap_rowList_take h _ le_rfl, h.ptr_last, ← stored_length h, List.take_length]

theorem stored_map_snd {c : Csr K} (h : c.WF) : c.stored.map Prod.snd = c.data := by
  unfold stored
  rw [List.map_snd_zip]
  exact le_of_eq h.len_idx.symm

theorem sum_flatMap_range {M : Type} [AddCommMonoid M] (g : ℕ → List M) (n : ℕ) :
    ((List.range n).flatMap g).sum = ∑ i ∈ range n, (g i).sum := by
  induction n with
  | zero => simp
  | succ n ih => rw [List.range_succ, List.flatMap_append, List.sum_append, ih, Finset.sum_range_succ]; simp

theorem toMat_get [AddCommMonoid K] {c : Csr K} {i j : ℕ} (hi : i < c.nr) (hj : j < c.nc) :
    c.toMat.get i j = valueAt (c.rowList i) j := by
  unfold toMat; rw [Mat.of_get_lt hi hj]

/-- Summing a function over the stored values is summing it over all cells. -/
theorem sum_data [AddCommMonoid K] {M : Type} [AddCommMonoid M] {c : Csr K} (h : c.WF) {f : K → M}
    (hf : f 0 = 0) :
    (c.data.map f).sum = ∑ i ∈ range c.nr, ∑ j ∈ range c.nc, f (c.toMat.get i j) := by
  rw [← stored_map_snd h, ← flatMap_rowList h, List.map_map, List.map_flatMap, sum_flatMap_range]
  refine Finset.sum_congr rfl (fun i hi => ?_)
  have hi' := Finset.mem_range.1 hi
  have := sum_valueAt hf (h.nodup i hi') (mem_rowList_lt h)
  rw [Function.comp_def, ← this]
  exact Finset.sum_congr rfl (fun j hj => by rw [toMat_get hi' (Finset.mem_range.1 hj)])

/-! ### `mapData`, `ofRows`, `eliminateZeros` -/

theorem rowList_mapData (f : K → K) (c : Csr K) (i : ℕ) :
    (c.mapData f).rowList i = (c.rowList i).map (fun e => (e.1, f e.2)) := by
  unfold rowList stored mapData ptr
  simp only []
  rw [← List.map_id c.indices, List.zip_map, List.map_take, List.map_drop, List.map_id]
  rfl

theorem WF.mapData {c : Csr K} (h : c.WF) (f : K → K) : (c.mapData f).WF where
  len_ptr := h.len_ptr
  ptr_zero := h.ptr_zero
  mono := h.mono
  ptr_last := by simpa [Csr.mapData, ptr] using h.ptr_last
  len_idx := by simpa [Csr.mapData] using h.len_idx
  idx_lt := h.idx_lt
  nodup i hi := by
    rw [rowList_mapData]
    simpa [List.map_map, Function.comp_def] using h.nodup i hi

theorem toMat_mapData [AddCommMonoid K] {c : Csr K} (h : c.WF) {f : K → K} (hf : f 0 = 0) :
    (c.mapData f).toMat = c.toMat.map f := by
  refine Mat.ext' rfl rfl (fun i j hi hj => ?_)
  have hi' : i < c.nr := hi
  have hj' : j < c.nc := hj
  rw [Mat.map_get_lt f _ hi' hj', toMat_get hi hj, toMat_get hi' hj', rowList_mapData,
    valueAt_map hf (h.nodup i hi')]

theorem scanl_getD (l : List ℕ) (a i : ℕ) (hi : i ≤ l.length) :
    (l.scanl (· + ·) a).getD i 0 = a + (l.take i).sum := by
  induction l generalizing a i with
  | nil =>
    have : i = 0 := by simpa using hi
    subst this; simp
  | cons x l ih =>
    cases i with
    | zero => simp
    | succ i =>
      rw [List.scanl_cons]
      simp only [List.getD_cons_succ, List.take_succ_cons, List.sum_cons]
      rw [ih (a + x) i (by simpa using hi)]
      omega

theorem ofRows_ptr (nc : ℕ) (rows : List (List (ℕ × K))) {i : ℕ} (hi : i ≤ rows.length) :
    (ofRows nc rows).ptr i = ((rows.take i).flatten).length := by
  unfold ptr ofRows
  simp only []
  rw [scanl_getD _ _ _ (by simpa using hi), List.length_flatten, List.map_take, zero_add]

theorem ofRows_stored (nc : ℕ) (rows : List (List (ℕ × K))) :
    (ofRows nc rows).stored = rows.flatten := by
  unfold stored ofRows
  simp only [List.zip_map', Prod.mk.eta, List.map_id']

theorem ofRows_rowList (nc : ℕ) (rows : List (List (ℕ × K))) {i : ℕ} (hi : i < rows.length) :
    (ofRows nc rows).rowList i = rows[i] := by
  unfold rowList
  rw [ofRows_stored, ofRows_ptr nc rows (by omega), ofRows_ptr nc rows (by omega)]
  have h1 : rows = rows.take i ++ (rows[i] :: rows.drop (i + 1)) := by
    rw [← List.drop_eq_getElem_cons hi, List.take_append_drop]
  have h2 : rows.take (i + 1) = rows.take i ++ [rows[i]] := by
    rw [List.take_succ_eq_append_getElem hi]
  have h3 : rows.flatten = (rows.take i).flatten ++ (rows[i] ++ (rows.drop (i + 1)).flatten) := by
    conv_lhs => rw [h1]
    rw [List.flatten_append, List.flatten_cons]
  rw [h2, h3, List.drop_left, List.flatten_append, List.length_append, Nat.add_sub_cancel_left]
  simp only [List.flatten_cons, List.flatten_nil, List.append_nil]
  rw [List.take_left]

theorem WF.ofRows {nc : ℕ} {rows : List (List (ℕ × K))} (h1 : ∀ r ∈ rows, ∀ e ∈ r, e.1 < nc)
    (h2 : ∀ r ∈ rows, (r.map Prod.fst).Nodup) : (ofRows nc rows).WF where
  len_ptr := by simp [Csr.ofRows]
  ptr_zero := by rw [ofRows_ptr nc rows (by omega)]; simp
  mono i hi := by
    have hi' : i < rows.length := hi
    rw [ofRows_ptr nc rows (by omega), ofRows_ptr nc rows (by omega),
      List.take_succ_eq_append_getElem hi', List.flatten_append, List.length_append]
    omega
  ptr_last := by
    have : (Csr.ofRows nc rows).nr = rows.length := rfl
    rw [this, ofRows_ptr nc rows le_rfl, List.take_length]
    simp only [Csr.ofRows, List.length_map]
  len_idx := by simp only [Csr.ofRows, List.length_map]
  idx_lt j hj := by
    simp only [Csr.ofRows, List.mem_map, List.mem_flatten] at hj
    obtain ⟨e, ⟨r, hr, he⟩, rfl⟩ := hj
    exact h1 r hr e he
  nodup i hi := by
    have hi' : i < rows.length := hi
    rw [ofRows_rowList nc rows hi']
    exact h2 _ (List.getElem_mem hi')

theorem WF.eliminateZeros [Zero K] [DecidableEq K] {c : Csr K} (h : c.WF) : c.eliminateZeros.WF := by
  refine WF.ofRows (fun r hr e he => ?_) (fun r hr => ?_)
  · obtain ⟨i, _, rfl⟩ := List.mem_map.1 hr
    exact mem_rowList_lt h e (List.mem_of_mem_filter he)
  · obtain ⟨i, hi, rfl⟩ := List.mem_map.1 hr
    exact List.Nodup.sublist (List.Sublist.map _ List.filter_sublist) (h.nodup i (List.mem_range.1 hi))

theorem eliminateZeros_nr [Zero K] [DecidableEq K] (c : Csr K) : c.eliminateZeros.nr = c.nr := by
  simp [Csr.eliminateZeros, Csr.ofRows]

theorem eliminateZeros_nc [Zero K] [DecidableEq K] (c : Csr K) : c.eliminateZeros.nc = c.nc := rfl

theorem rowList_eliminateZeros [Zero K] [DecidableEq K] (c : Csr K) {i : ℕ} (hi : i < c.nr) :
    c.eliminateZeros.rowList i = (c.rowList i).filter (fun e => decide (e.2 ≠ 0)) := by
  unfold Csr.eliminateZeros
  rw [ofRows_rowList _ _ (by simpa using hi)]
  simp

theorem toMat_eliminateZeros [AddCommMonoid K] [DecidableEq K] (c : Csr K) :
    c.eliminateZeros.toMat = c.toMat := by
  refine Mat.ext' (eliminateZeros_nr c) (eliminateZeros_nc c) (fun i j hi hj => ?_)
  have hi' : i < c.nr := by simpa [toMat, eliminateZeros_nr] using hi
  have hj' : j < c.nc := by simpa [toMat, eliminateZeros_nc] using hj
  rw [toMat_get (by rwa [eliminateZeros_nr]) hj, toMat_get hi' hj', rowList_eliminateZeros c hi', valueAt_filter_ne]

theorem data_ne_zero_eliminateZeros [Zero K] [DecidableEq K] (c : Csr K) :
    ∀ x ∈ c.eliminateZeros.data, x ≠ 0 := by
  intro x hx
  simp only [Csr.eliminateZeros, Csr.ofRows, List.mem_map, List.mem_flatten] at hx
  obtain ⟨e, ⟨r, ⟨i, _, rfl⟩, he⟩, rfl⟩ := hx
  simpa using (List.mem_filter.1 he).2

/-- A stored value is the value of a cell. -/
theorem data_mem_cell [AddCommMonoid K] {c : Csr K} (h : c.WF) {x : K} (hx : x ∈ c.data) :
    ∃ i j, i < c.nr ∧ j < c.nc ∧ c.toMat.get i j = x := by
  rw [← stored_map_snd h, ← flatMap_rowList h] at hx
  obtain ⟨e, he, rfl⟩ := List.mem_map.1 hx
  obtain ⟨i, hi, he⟩ := List.mem_flatMap.1 he
  have hi' := List.mem_range.1 hi
  have hj := mem_rowList_lt h e he
  exact ⟨i, e.1, hi', hj, by rw [toMat_get hi' hj, valueAt_mem (h.nodup i hi') he]⟩

/-- A cell is `0` or a stored value. -/
theorem cell_mem_data [AddCommMonoid K] {c : Csr K} (h : c.WF) (i j : ℕ) :
    c.toMat.get i j = 0 ∨ c.toMat.get i j ∈ c.data := by
  by_cases hb : i < c.nr ∧ j < c.nc
  · rw [toMat_get hb.1 hb.2]
    by_cases hj : j ∈ (c.rowList i).map Prod.fst
    · obtain ⟨e, he, rfl⟩ := List.mem_map.1 hj
      right
      rw [valueAt_mem (h.nodup i hb.1) he, ← stored_map_snd h]
      exact List.mem_map_of_mem (rowList_sub_stored c i e he)
    · exact Or.inl (valueAt_of_not_mem hj)
  · exact Or.inl (Mat.oob _ i j hb)

end Csr
end Dissect
