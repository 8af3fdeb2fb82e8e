import Verif.Lemmas.IoRead

/-! The writers: CSR loop, dense loop, label lists; reading back what was written. -/

namespace Dissect

/-! ### The CSR writer -/

/-- The text of one stored entry. -/
def entryText (io : NumIO) (id2row id2col : List Str) (e : ℕ × ℕ × ℝ) : Str :=
  sparseRecord io (id2row.getD e.1 []) (id2col.getD e.2.1 []) e.2.2

theorem coo_take {c : Csr ℝ} (h : c.WF) : ∀ n, n ≤ c.nr →
    ((List.range n).flatMap (fun i => (c.rowList i).map (fun e => (i, e.1, e.2)))).length = c.ptr n ∧
    ∀ p, p < c.ptr n → ∃ r e, r < n ∧ c.ptr r ≤ p ∧ p < c.ptr (r + 1) ∧ c.stored[p]? = some e ∧
      ((List.range n).flatMap (fun i => (c.rowList i).map (fun e => (i, e.1, e.2))))[p]? = some (r, e.1, e.2) := by
  intro n
  induction n with
  | zero => intro _; simp [h.ptr_zero]
  | succ n ih =>
    intro hn
    obtain ⟨h1, h2⟩ := ih (by omega)
    have hm := h.mono n (by omega)
    have hle := Csr.ptr_le_len h (show n + 1 ≤ c.nr from hn)
    have hlen : (c.rowList n).length = c.ptr (n + 1) - c.ptr n := by
      unfold Csr.rowList
      rw [List.length_take, List.length_drop, Csr.stored_length h]
      omega
    rw [List.range_succ, List.flatMap_append]
    constructor
    · rw [List.length_append, h1]
      simp [hlen]
      omega
    · intro p hp
      by_cases hlt : p < c.ptr n
      · obtain ⟨r, e, g1, g2, g3, g4, g5⟩ := h2 p hlt
        refine ⟨r, e, by omega, g2, g3, g4, ?_⟩
        exact getElem?_append_some g5
      · have hp' : p < c.data.length := by omega
        refine ⟨n, c.stored[p]'(by rw [Csr.stored_length h]; exact hp'), by omega, by omega, hp, by simp, ?_⟩
        rw [List.getElem?_append_right (by omega), h1]
        simp only [List.flatMap_cons, List.flatMap_nil, List.append_nil]
        rw [List.getElem?_map]
        unfold Csr.rowList
        rw [List.getElem?_take_of_lt (by omega), List.getElem?_drop,
          show c.ptr n + (p - c.ptr n) = p by omega, List.getElem?_eq_getElem]
        rfl

theorem coo_pos {c : Csr ℝ} (h : c.WF) {p : ℕ} (hp : p < c.data.length) :
    ∃ r e, r < c.nr ∧ c.ptr r ≤ p ∧ p < c.ptr (r + 1) ∧ c.stored[p]? = some e ∧
      c.toCoo.entries[p]? = some (r, e.1, e.2) :=
  (coo_take h c.nr le_rfl).2 p (by rw [h.ptr_last]; exact hp)

theorem coo_length {c : Csr ℝ} (h : c.WF) : c.toCoo.entries.length = c.data.length := by
  have := (coo_take h c.nr le_rfl).1
  rw [h.ptr_last] at this
  exact this

theorem ptr_getElem? {c : Csr ℝ} (h : c.WF) {i : ℕ} (hi : i ≤ c.nr) : c.indptr[i]? = some (c.ptr i) := by
  have := h.len_ptr
  unfold Csr.ptr
  rw [List.getElem?_eq_getElem (by omega), List.getD_eq_getElem?_getD, List.getElem?_eq_getElem (by omega)]
  rfl

theorem getElem?_of_lt {α : Type} {l : List α} (d : α) {i : ℕ} (hi : i < l.length) : l[i]? = some (l.getD i d) := by
  rw [List.getD_eq_getElem?_getD, List.getElem?_eq_getElem hi]
  rfl

theorem writerAdvance_spec {c : Csr ℝ} (h : c.WF) {id2row : List Str} (hr : id2row.length = c.nr) {p : ℕ}
    (hp : p < c.data.length) : ∀ (k r : ℕ), c.nr - r = k → r < c.nr → c.ptr r ≤ p → p ≤ c.ptr (r + 1) →
    ∃ r', r' < c.nr ∧ c.ptr r' ≤ p ∧ p < c.ptr (r' + 1) ∧
      writerAdvance c.indptr id2row p ⟨r, c.ptr (r + 1), id2row.getD r []⟩
        = .ok ⟨r', c.ptr (r' + 1), id2row.getD r' []⟩ := by
  intro k
  induction k with
  | zero => intro r hk hr1; omega
  | succ k ih =>
    intro r hk hr1 h1 h2
    by_cases heq : p = c.ptr (r + 1)
    · have hlt : r + 1 < c.nr := by
        by_contra hc
        have : r + 1 = c.nr := by omega
        rw [this, h.ptr_last] at heq
        omega
      have hm := h.mono (r + 1) hlt
      obtain ⟨r', g1, g2, g3, g4⟩ := ih (r + 1) (by omega) hlt (by omega) (by omega)
      refine ⟨r', g1, g2, g3, ?_⟩
      rw [writerAdvance]
      simp only []
      rw [if_pos heq]
      split
      · rename_i nxt lab e1 e2
        rw [ptr_getElem? h (show r + 1 + 1 ≤ c.nr by omega)] at e1
        rw [getElem?_of_lt ([] : Str) (show r + 1 < id2row.length by omega)] at e2
        injection e1 with e1
        injection e2 with e2
        rw [← e1, ← e2]
        exact g4
      · rename_i hno
        exact absurd (getElem?_of_lt ([] : Str) (show r + 1 < id2row.length by omega))
          (hno _ _ (ptr_getElem? h (show r + 1 + 1 ≤ c.nr by omega)))
    · refine ⟨r, hr1, h1, by omega, ?_⟩
      rw [writerAdvance]
      simp only []
      rw [if_neg heq]

theorem ptr_unique {c : Csr ℝ} (h : c.WF) {p r r' : ℕ} (hr : r < c.nr) (hr' : r' < c.nr) (h1 : c.ptr r ≤ p)
    (h2 : p < c.ptr (r + 1)) (h3 : c.ptr r' ≤ p) (h4 : p < c.ptr (r' + 1)) : r = r' := by
  by_contra hne
  rcases Nat.lt_or_gt_of_ne hne with hlt | hlt
  · have := Csr.ptr_mono h (show r + 1 ≤ r' by omega) (by omega); omega
  · have := Csr.ptr_mono h (show r' + 1 ≤ r by omega) (by omega); omega

theorem writerLoop_spec {io : NumIO} {c : Csr ℝ} (h : c.WF) {id2row id2col : List Str} (hr : id2row.length = c.nr)
    (hc : id2col.length = c.nc) : ∀ (k p r : ℕ), c.data.length - p = k → p ≤ c.data.length → r < c.nr → c.ptr r ≤ p →
    p ≤ c.ptr (r + 1) →
    writerLoop io c.indptr id2row id2col (c.stored.drop p) p ⟨r, c.ptr (r + 1), id2row.getD r []⟩
      = .ok ((c.toCoo.entries.drop p).map (entryText io id2row id2col)).flatten := by
  intro k
  induction k with
  | zero =>
    intro p r hk hp _ _ _
    have : p = c.data.length := by omega
    rw [List.drop_eq_nil_of_le (by rw [Csr.stored_length h]; omega),
      List.drop_eq_nil_of_le (by rw [coo_length h]; omega)]
    rfl
  | succ k ih =>
    intro p r hk hp hr1 h1 h2
    have hp' : p < c.data.length := by omega
    obtain ⟨r0, e, g1, g2, g3, g4, g5⟩ := coo_pos h hp'
    obtain ⟨r', k1, k2, k3, k4⟩ := writerAdvance_spec h hr hp' _ r rfl hr1 h1 h2
    have hrr : r0 = r' := ptr_unique h g1 k1 g2 g3 k2 k3
    subst hrr
    obtain ⟨hs1, hs2⟩ := List.getElem?_eq_some_iff.1 g4
    obtain ⟨hc1, hc2⟩ := List.getElem?_eq_some_iff.1 g5
    rw [List.drop_eq_getElem_cons hs1, hs2, List.drop_eq_getElem_cons hc1, hc2]
    have hj : e.1 < c.nc := by
      have : e ∈ c.stored := List.mem_of_getElem? g4
      exact h.idx_lt e.1 (List.of_mem_zip this).1
    rw [List.map_cons, List.flatten_cons]
    obtain ⟨j, x⟩ := e
    rw [writerLoop, k4, ok_bind, getElem?_of_lt ([] : Str) (show j < id2col.length by omega)]
    simp only []
    rw [ih (p + 1) r0 (by omega) (by omega) k1 (by omega) (by omega), ok_bind]
    rfl

theorem printCsr_spec {io : NumIO} {c : Csr ℝ} (h : c.WF) {id2row id2col : List Str} (hr : id2row.length = c.nr)
    (hc : id2col.length = c.nc) (hpos : 0 < c.nr) :
    printCsr io c id2row id2col = .ok (c.toCoo.entries.map (entryText io id2row id2col)).flatten := by
  unfold printCsr
  rw [ptr_getElem? h (show 1 ≤ c.nr by omega), getElem?_of_lt ([] : Str) (show 0 < id2row.length by omega)]
  simp only []
  have := writerLoop_spec (io := io) h hr hc _ 0 0 rfl (by omega) hpos (by rw [h.ptr_zero]) (by omega)
  simpa using this

/-! ### The dense writer of sm files -/

/-- Non-zero cells of a row. -/
noncomputable def rowCells (A : Mat ℝ) (i : ℕ) (js : List ℕ) : List (ℕ × ℕ × ℝ) :=
  (js.filter (fun j => decide (A.get i j ≠ 0))).map (fun j => (i, j, A.get i j))

/-- Non-zero cells in row-major order. -/
noncomputable def nzCells (A : Mat ℝ) : List (ℕ × ℕ × ℝ) :=
  (List.range A.nr).flatMap (fun i => rowCells A i (List.range A.nc))

theorem printDenseRow_spec {io : NumIO} {A : Mat ℝ} {id2row id2col : List Str} {i : ℕ} (hi : i < id2row.length)
    (js : List ℕ) (hj : ∀ j ∈ js, j < id2col.length) :
    printDenseRow io A id2row id2col i js = .ok ((rowCells A i js).map (entryText io id2row id2col)).flatten := by
  induction js with
  | nil => rfl
  | cons j js ih =>
    have ih' := ih (fun x hx => hj x (List.mem_cons_of_mem _ hx))
    unfold printDenseRow
    by_cases h : A.get i j ≠ 0
    · rw [if_pos h, getElem?_of_lt ([] : Str) hi, getElem?_of_lt ([] : Str) (hj j List.mem_cons_self)]
      simp only []
      rw [ih', ok_bind]
      unfold rowCells
      rw [List.filter_cons, if_pos (by simpa using h)]
      rfl
    · rw [if_neg h, ih']
      unfold rowCells
      rw [List.filter_cons, if_neg (by simpa using h)]

theorem printDenseSm_spec {io : NumIO} {A : Mat ℝ} {id2row id2col : List Str} (hc : A.nc = id2col.length)
    (is : List ℕ) (hi : ∀ i ∈ is, i < id2row.length) :
    printDenseSm io A id2row id2col is =
      .ok ((is.flatMap (fun i => rowCells A i (List.range A.nc))).map (entryText io id2row id2col)).flatten := by
  induction is with
  | nil => rfl
  | cons i is ih =>
    unfold printDenseSm
    rw [printDenseRow_spec (hi i List.mem_cons_self) _ (by intro j hj; rw [← hc]; exact List.mem_range.1 hj), ok_bind,
      ih (fun x hx => hi x (List.mem_cons_of_mem _ hx)), ok_bind, List.flatMap_cons, List.map_append,
      List.flatten_append]
    rfl

/-! ### Reading back -/

theorem sparseRecord_eq (io : NumIO) (r c : Str) (x : ℝ) :
    sparseRecord io r c x = joinStr ['\t'] [r, c, io.fmtF x] ++ ['\n'] := by
  unfold sparseRecord
  simp [joinStr, List.append_assoc]

theorem records_lines {ls : List (List Str)} (h : ∀ l ∈ ls, l ≠ [] ∧ ∀ w ∈ l, IsWord w) :
    records ((ls.map (fun l => joinStr ['\t'] l ++ ['\n'])).flatten) = ls := by
  unfold records
  have e : ls.map (fun l => joinStr ['\t'] l ++ ['\n'])
      = (ls.map (joinStr ['\t'])).map (fun l => l ++ ['\n']) := by rw [List.map_map]; rfl
  rw [e, fileLines_flatten]
  · rw [List.map_map, List.map_map]
    have : ls.map ((split ∘ fun l => l ++ ['\n']) ∘ joinStr ['\t']) = ls := by
      conv_rhs => rw [← List.map_id ls]
      apply List.map_congr_left
      intro l hl
      simp only [Function.comp, id]
      exact split_join (h l hl).2 isWs_tab ['\n'] (by simp [isWs_newline])
    rw [this, List.filter_eq_self]
    intro l hl
    simpa using (h l hl).1
  · intro l hl
    obtain ⟨t, ht, rfl⟩ := List.mem_map.1 hl
    exact joinStr_no_newline (h t ht).2

/-- The records of a text consisting of entry lines. -/
theorem records_entries {io : NumIO} {id2row id2col : List Str} (hr : ∀ w ∈ id2row, IsWord w)
    (hc : ∀ w ∈ id2col, IsWord w) {E : List (ℕ × ℕ × ℝ)}
    (hE : ∀ e ∈ E, e.1 < id2row.length ∧ e.2.1 < id2col.length ∧ IsWord (io.fmtF e.2.2)) :
    records ((E.map (entryText io id2row id2col)).flatten) =
      E.map (fun e => [id2row.getD e.1 [], id2col.getD e.2.1 [], io.fmtF e.2.2]) := by
  have : E.map (entryText io id2row id2col)
      = (E.map (fun e => [id2row.getD e.1 [], id2col.getD e.2.1 [], io.fmtF e.2.2])).map
        (fun l => joinStr ['\t'] l ++ ['\n']) := by
    rw [List.map_map]
    apply List.map_congr_left
    intro e _
    exact sparseRecord_eq _ _ _ _
  rw [this, records_lines]
  intro l hl
  obtain ⟨e, he, rfl⟩ := List.mem_map.1 hl
  obtain ⟨h1, h2, h3⟩ := hE e he
  refine ⟨by simp, ?_⟩
  intro w hw
  simp only [List.mem_cons, List.not_mem_nil, or_false] at hw
  rcases hw with rfl | rfl | rfl
  · exact hr _ (List.mem_of_getElem? (getElem?_of_lt [] h1))
  · exact hc _ (List.mem_of_getElem? (getElem?_of_lt [] h2))
  · exact h3

/-- What a number becomes when it is written with `%f` and read again. -/
noncomputable def NumIO.viaF (io : NumIO) (x : ℝ) : ℝ := (io.parse (io.fmtF x)).getD 0

theorem cellSum_entries {io : NumIO} {id2row id2col : List Str} (hrn : id2row.Nodup) (hcn : id2col.Nodup)
    {E : List (ℕ × ℕ × ℝ)} (hE : ∀ e ∈ E, e.1 < id2row.length ∧ e.2.1 < id2col.length) {i j : ℕ} {w1 w2 : Str}
    (h1 : id2row[i]? = some w1) (h2 : id2col[j]? = some w2) :
    ((E.map (fun e => [id2row.getD e.1 [], id2col.getD e.2.1 [], io.fmtF e.2.2])).map (recordCount io w1 w2)).sum =
      ((E.filter (fun e => decide (e.1 = i ∧ e.2.1 = j))).map (fun e => io.viaF e.2.2)).sum := by
  induction E with
  | nil => rfl
  | cons e E ih =>
    obtain ⟨g1, g2⟩ := hE e List.mem_cons_self
    rw [List.map_cons, List.map_cons, List.sum_cons, ih (fun x hx => hE x (List.mem_cons_of_mem _ hx)),
      List.filter_cons]
    have hi := (List.getElem?_eq_some_iff.1 h1).1
    have hj := (List.getElem?_eq_some_iff.1 h2).1
    have e1 : id2row.getD e.1 [] = w1 ↔ e.1 = i := by
      constructor
      · intro h
        have : id2row[e.1]? = id2row[i]? := by rw [getElem?_of_lt [] g1, h, h1]
        exact (List.getElem?_inj g1 hrn).1 this
      · rintro rfl; rw [getElem?_of_lt [] g1] at h1; injection h1
    have e2 : id2col.getD e.2.1 [] = w2 ↔ e.2.1 = j := by
      constructor
      · intro h
        have : id2col[e.2.1]? = id2col[j]? := by rw [getElem?_of_lt [] g2, h, h2]
        exact (List.getElem?_inj g2 hcn).1 this
      · rintro rfl; rw [getElem?_of_lt [] g2] at h2; injection h2
    simp only [recordCount, e1, e2]
    by_cases hc : e.1 = i ∧ e.2.1 = j
    · simp [hc, NumIO.viaF]
    · simp [hc]

end Dissect
