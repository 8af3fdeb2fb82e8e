import Verif.Lemmas.IoWrite
import Verif.Lemmas.Fs
import Verif.Props.Reshape

/-! Writing a space and reading it again. -/

namespace Dissect
open Finset

theorem FirstOcc.eq_of_nodup {toks l : List Str} (h : FirstOcc toks l) (hn : toks.Nodup) : l = toks := by
  have h2 : toks.Pairwise (fun a b => toks.idxOf a < toks.idxOf b) := by
    rw [List.pairwise_iff_getElem]
    intro i j hi hj hij
    rw [hn.idxOf_getElem, hn.idxOf_getElem]
    exact hij
  have : Std.Antisymm (fun a b : Str => toks.idxOf a < toks.idxOf b) := ⟨fun a b h1 h2 => by omega⟩
  have : Std.Irrefl (fun a b : Str => toks.idxOf a < toks.idxOf b) := ⟨fun a h => by omega⟩
  exact List.Pairwise.eq_of_mem_iff h.order h2 h.mem

/-- `[l], [d] = extract_indexing_structs(file, [0])`. -/
theorem extractFirst_ok {content : Str} (hne : records content ≠ []) :
    ∃ l d, extractFirst content = .ok (l, d) ∧ FirstOcc ((records content).filterMap List.head?) l ∧ IndexOf l d := by
  have hv : validRecords content [0] = records content := by
    unfold validRecords
    rw [List.filter_eq_self]
    intro t ht
    have : t ≠ [] := by
      unfold records at ht
      simpa using (List.mem_filter.1 ht).2
    simpa using List.length_pos_iff.2 this
  have hcol : columnOf content [0] 0 = (records content).filterMap List.head? := by
    unfold columnOf
    rw [hv]
    apply List.filterMap_congr
    intro t _
    exact List.head?_eq_getElem?.symm
  have hmx : maxField [0] = .ok 0 := rfl
  have hinv := IdxInv.foldl (ws := columnOf content [0] 0) IdxInv.init
  rw [List.nil_append] at hinv
  set st := (columnOf content [0] 0).foldl IdxSt.step ⟨Dict.empty, [], 0⟩ with hst
  have hl : st.l ≠ [] := by
    intro hc
    have hnil : columnOf content [0] 0 = [] := by
      rw [List.eq_nil_iff_forall_not_mem]
      intro w hw
      have := (hinv.first.mem w).2 hw
      rw [hc] at this
      simp at this
    rw [columnOf_eq_nil (by simp), hv] at hnil
    exact hne hnil
  refine ⟨st.l, st.d, ?_, hcol ▸ hinv.first, hinv.index⟩
  unfold extractFirst extractIndexing
  simp only [hmx, ok_bind]
  rw [idxLoop_column hmx]
  simp only [List.map_cons, List.map_nil]
  rw [if_neg (by simpa using hl)]
  rfl

theorem extractFirst_nodup {content : Str} {l : List Str} (hne : l ≠ []) (hn : l.Nodup)
    (hrec : (records content).filterMap List.head? = l) :
    ∃ d, extractFirst content = .ok (l, d) ∧ IndexOf l d := by
  have hr : records content ≠ [] := by
    intro h
    rw [h] at hrec
    exact hne hrec.symm
  obtain ⟨l', d, h1, h2, h3⟩ := extractFirst_ok hr
  rw [hrec] at h2
  have := h2.eq_of_nodup hn
  subst this
  exact ⟨d, h1, h3⟩

theorem records_printList {l : List Str} (h : ∀ w ∈ l, IsWord w) : records (printList l) = l.map (fun w => [w]) := by
  have := records_lines (ls := l.map (fun w => [w])) (by
    intro t ht
    obtain ⟨w, hw, rfl⟩ := List.mem_map.1 ht
    exact ⟨by simp, by simpa using h w hw⟩)
  rw [List.map_map] at this
  unfold printList
  exact this

theorem extractFirst_printList {l : List Str} (h : ∀ w ∈ l, IsWord w) (hne : l ≠ []) (hn : l.Nodup) :
    ∃ d, extractFirst (printList l) = .ok (l, d) ∧ IndexOf l d := by
  apply extractFirst_nodup hne hn
  rw [records_printList h, List.filterMap_map]
  have : (List.head? ∘ fun w : Str => [w]) = some := rfl
  rw [this, List.filterMap_some]

/-! ### sm -/

theorem readSparse_entries {io : NumIO} {rows cols : List Str} {rd cd : Dict Str ℤ} (hr : IndexOf rows rd)
    (hc : IndexOf cols cd) (hrw : ∀ w ∈ rows, IsWord w) (hcw : ∀ w ∈ cols, IsWord w) {E : List (ℕ × ℕ × ℝ)}
    (hE : ∀ e ∈ E, e.1 < rows.length ∧ e.2.1 < cols.length ∧ IsWord (io.fmtF e.2.2) ∧
      io.parse (io.fmtF e.2.2) ≠ none) :
    ∃ m, readSparse io ((E.map (entryText io rows cols)).flatten) rd cd = .ok m ∧ m.ty = .sparse ∧
      m.nr = rows.length ∧ m.nc = cols.length ∧
      ∀ i j, i < rows.length → j < cols.length → m.val.get i j =
        ((E.filter (fun e => decide (e.1 = i ∧ e.2.1 = j))).map (fun e => io.viaF e.2.2)).sum := by
  have hrec := records_entries (io := io) hrw hcw (E := E) (fun e he => ⟨(hE e he).1, (hE e he).2.1, (hE e he).2.2.1⟩)
  obtain ⟨m, h1, h2, h3, h4, h5⟩ := readSparse_good (io := io) hr hc
    (content := (E.map (entryText io rows cols)).flatten) (by
      rw [hrec]
      intro t ht
      obtain ⟨e, he, rfl⟩ := List.mem_map.1 ht
      exact ⟨_, _, _, [], rfl, fun _ _ => (hE e he).2.2.2⟩)
  refine ⟨m, h1, h2, h3, h4, fun i j hi hj => ?_⟩
  rw [h5 i j _ _ (getElem?_of_lt [] hi) (getElem?_of_lt [] hj)]
  unfold cellSum
  rw [hrec]
  exact cellSum_entries hr.nodup hc.nodup (fun e he => ⟨(hE e he).1, (hE e he).2.1⟩) (getElem?_of_lt [] hi)
    (getElem?_of_lt [] hj)

theorem sum_filter_map {α : Type} (E : List α) (p : α → Bool) (f : α → ℝ) :
    ((E.filter p).map f).sum = (E.map (fun e => if p e then f e else 0)).sum := by
  induction E with
  | nil => rfl
  | cons e E ih =>
    rw [List.filter_cons]
    by_cases h : p e = true <;> simp [h, ih]

theorem nzCells_sum {A : Mat ℝ} {f : ℝ → ℝ} (hf : f 0 = 0) {i j : ℕ} (hi : i < A.nr) (hj : j < A.nc) :
    (((nzCells A).filter (fun e => decide (e.1 = i ∧ e.2.1 = j))).map (fun e => f e.2.2)).sum = f (A.get i j) := by
  rw [sum_filter_map]
  unfold nzCells
  rw [List.map_flatMap, Csr.sum_flatMap_range]
  have key : ∀ a, ((rowCells A a (List.range A.nc)).map
      (fun e => if decide (e.1 = i ∧ e.2.1 = j) = true then f e.2.2 else 0)).sum
      = if a = i then f (A.get i j) else 0 := by
    intro a
    unfold rowCells
    rw [List.map_map, sum_filter_map]
    have : ∀ n, n ≤ A.nc → ((List.range n).map (fun e => if decide (A.get a e ≠ 0) = true then
        ((fun e : ℕ × ℕ × ℝ => if decide (e.1 = i ∧ e.2.1 = j) = true then f e.2.2 else 0) ∘
          fun j => (a, j, A.get a j)) e else 0)).sum = if a = i ∧ j < n then f (A.get i j) else 0 := by
      intro n
      induction n with
      | zero => intro _; simp
      | succ n ih =>
        intro hn
        rw [List.range_succ, List.map_append, List.sum_append, ih (by omega)]
        simp only [List.map_cons, List.map_nil, List.sum_cons, List.sum_nil, add_zero, Function.comp,
          decide_eq_true_eq]
        by_cases ha : a = i
        · subst ha
          by_cases hjn : n = j
          · subst hjn
            by_cases hz : A.get a n = 0
            · simp [hz, hf]
            · simp [hz]
          · by_cases hlt : j < n
            · have : j < n + 1 := by omega
              simp [hlt, this, hjn]
            · have : ¬ j < n + 1 := by omega
              simp [hlt, this, hjn]
        · simp [ha]
    rw [this A.nc le_rfl]
    simp [hj]
  rw [Finset.sum_congr rfl (fun a _ => key a)]
  simp [hi]

theorem nzCells_mem {A : Mat ℝ} {e : ℕ × ℕ × ℝ} (h : e ∈ nzCells A) :
    e.1 < A.nr ∧ e.2.1 < A.nc ∧ e.2.2 = A.get e.1 e.2.1 := by
  unfold nzCells rowCells at h
  simp only [List.mem_flatMap, List.mem_range, List.mem_map, List.mem_filter] at h
  obtain ⟨i, hi, j, ⟨hj, _⟩, rfl⟩ := h
  exact ⟨hi, hj, rfl⟩

theorem coo_mem {c : Csr ℝ} (h : c.WF) {e : ℕ × ℕ × ℝ} (he : e ∈ c.toCoo.entries) :
    e.1 < c.nr ∧ e.2.1 < c.nc ∧ e.2.2 ∈ c.data := by
  simp only [Csr.toCoo, List.mem_flatMap, List.mem_range, List.mem_map] at he
  obtain ⟨i, hi, x, hx, rfl⟩ := he
  refine ⟨hi, Csr.mem_rowList_lt h x hx, ?_⟩
  exact (List.of_mem_zip (Csr.rowList_sub_stored c i x hx)).2

theorem coo_sum {c : Csr ℝ} (h : c.WF) {f : ℝ → ℝ} (hf : f 0 = 0) {i j : ℕ} (hi : i < c.nr) (hj : j < c.nc) :
    ((c.toCoo.entries.filter (fun e => decide (e.1 = i ∧ e.2.1 = j))).map (fun e => f e.2.2)).sum
      = f (c.toMat.get i j) := by
  have h1 : ((c.mapData f).toCoo.toMat).get i j = f (c.toMat.get i j) := by
    rw [toCoo_toMat, Csr.toMat_mapData h hf, Mat.map_get_lt _ _ (by exact hi) (by exact hj)]
  rw [← h1]
  unfold Coo.toMat
  rw [Mat.of_get_lt (by exact hi) (by exact hj)]
  have h2 : (c.mapData f).toCoo.entries = c.toCoo.entries.map (fun e => (e.1, e.2.1, f e.2.2)) := by
    simp only [Csr.toCoo]
    rw [List.map_flatMap]
    congr 1
    funext a
    rw [Csr.rowList_mapData, List.map_map, List.map_map]
    rfl
  rw [h2, List.filter_map, List.map_map]
  rfl

/-! ### dm -/

/-- The text line of row `i`. -/
noncomputable def dmLine (io : NumIO) (m : TMat ℝ) (w : Str) (i : ℕ) : List Str :=
  w :: (List.range m.nc).map (fun j => io.repr (m.val.get i j))

theorem printDm_spec {io : NumIO} {m : TMat ℝ} (hc : 0 < m.nc) (ws : List Str) : ∀ i, i + ws.length ≤ m.nr →
    printDm io m ws i = .ok (((List.range ws.length).map (fun k => dmLine io m (ws.getD k []) (i + k))).map
      (fun l => joinStr ['\t'] l ++ ['\n'])).flatten := by
  induction ws with
  | nil => intro i _; rfl
  | cons w ws ih =>
    intro i h
    simp only [List.length_cons] at h
    unfold printDm
    have hrow : m.getRow (i : ℤ) = .ok ⟨m.ty, m.val.row i⟩ := by
      unfold TMat.getRow
      rw [pyIdx_nat (by omega)]
      simp only [TMat.wrap]
      cases m.ty with
      | sparse => rfl
      | dense =>
        simp only []
        rw [if_neg]
        simp only [Mat.row_nr, Mat.row_nc]
        simp only [TMat.nc] at hc
        omega
    rw [hrow, ok_bind]
    simp only [TMat.toDense, ok_bind]
    rw [ih (i + 1) (by omega), ok_bind, List.length_cons, List.range_succ_eq_map, List.map_cons, List.map_cons,
      List.flatten_cons, List.map_map]
    have e1 : reprRow io (⟨.dense, m.val.row i⟩ : TMat ℝ) = (List.range m.nc).map (fun j => io.repr (m.val.get i j)) :=
      rfl
    have e2 : (fun k => dmLine io m (ws.getD k []) (i + 1 + k)) =
        ((fun k => dmLine io m ((w :: ws).getD k []) (i + k)) ∘ Nat.succ) := by
      funext k
      simp only [Function.comp, List.getD_cons_succ]
      rw [show i + 1 + k = i + (k + 1) by omega]
    rw [e1, e2]
    simp only [dmLine, List.getD_cons_zero, Nat.add_zero, pure_eq_ok, List.map_map]

theorem records_dm {io : NumIO} {m : TMat ℝ} {ws : List Str} (hw : ∀ w ∈ ws, IsWord w)
    (hrepr : ∀ i j, i < m.nr → j < m.nc → IsWord (io.repr (m.val.get i j))) (hlen : ws.length ≤ m.nr) :
    records (((List.range ws.length).map (fun k => dmLine io m (ws.getD k []) (0 + k))).map
      (fun l => joinStr ['\t'] l ++ ['\n'])).flatten
      = (List.range ws.length).map (fun k => dmLine io m (ws.getD k []) k) := by
  rw [records_lines]
  · simp
  · intro l hl
    obtain ⟨k, hk, rfl⟩ := List.mem_map.1 hl
    rw [List.mem_range] at hk
    refine ⟨by simp [dmLine], ?_⟩
    intro w hw'
    unfold dmLine at hw'
    rcases List.mem_cons.1 hw' with rfl | hw'
    · exact hw _ (List.mem_of_getElem? (getElem?_of_lt [] hk))
    · obtain ⟨j, hj, rfl⟩ := List.mem_map.1 hw'
      rw [List.mem_range] at hj
      exact hrepr _ _ (by omega) hj

end Dissect
