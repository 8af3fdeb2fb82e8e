import Verif.Lemmas.IoWrite
import Verif.Lemmas.Decimal

/-! # Reading and writing data files: C55, C56, C57, C60 -/

namespace Dissect

/-! ## C55 -/

/-- **C55** When `extract_indexing_structs` succeeds it returns, for every requested field, the distinct strings of that
field over all lines that have all requested fields, in order of first occurrence, and the dictionary mapping each string
to its position. -/
theorem C55_index_structs {content : Str} {fields : List ℕ} {res : List (List Str × Dict Str ℤ)}
    (h : extractIndexing content fields = .ok res) :
    res.length = fields.length ∧ ∀ (k f : ℕ), fields[k]? = some f → ∃ l d, res[k]? = some (l, d) ∧ l ≠ [] ∧
      FirstOcc (columnOf content fields f) l ∧ IndexOf l d := by
  unfold extractIndexing at h
  rw [bind_eq_ok] at h
  obtain ⟨mx, hmx, h⟩ := h
  simp only [idxLoop_column hmx] at h
  split at h
  · cases h
  · rename_i hany
    injection h with h
    subst h
    refine ⟨by simp, fun k f hf => ?_⟩
    have hinv := IdxInv.foldl (ws := columnOf content fields f) IdxInv.init
    rw [List.nil_append] at hinv
    refine ⟨_, _, ?_, ?_, hinv.first, hinv.index⟩
    · rw [List.getElem?_map, List.getElem?_map, hf]; rfl
    · intro hnil
      apply hany
      rw [List.any_eq_true]
      exact ⟨_, List.mem_map.2 ⟨f, List.mem_of_getElem? hf, rfl⟩, by simpa using hnil⟩

/-- **C55** It fails, with `ValueError`, exactly when no field is requested or no line has all requested fields. -/
theorem C55_error (content : Str) (fields : List ℕ) :
    (fields = [] ∨ validRecords content fields = [] → extractIndexing content fields = .error .valueError) ∧
    (fields ≠ [] → validRecords content fields ≠ [] → ∃ res, extractIndexing content fields = .ok res) := by
  cases fields with
  | nil => exact ⟨fun _ => rfl, fun h => absurd rfl h⟩
  | cons f fs =>
    have hmx : maxField (f :: fs) = .ok (fs.foldl max f) := rfl
    have hl : ∀ g ∈ f :: fs, (((columnOf content (f :: fs) g).foldl IdxSt.step ⟨Dict.empty, [], 0⟩).l = [] ↔
        validRecords content (f :: fs) = []) := by
      intro g hg
      have hinv := IdxInv.foldl (ws := columnOf content (f :: fs) g) IdxInv.init
      rw [List.nil_append] at hinv
      rw [← columnOf_eq_nil hg, List.eq_nil_iff_forall_not_mem, List.eq_nil_iff_forall_not_mem]
      exact forall_congr' fun w => not_congr (hinv.first.mem w)
    constructor
    · rintro (h | h)
      · cases h
      · unfold extractIndexing
        rw [hmx, ok_bind]
        simp only [idxLoop_column hmx]
        rw [if_pos]
        rw [List.any_eq_true]
        exact ⟨_, List.mem_map.2 ⟨f, by simp, rfl⟩, by simpa using (hl f (by simp)).2 h⟩
    · intro _ h
      unfold extractIndexing
      rw [hmx, ok_bind]
      simp only [idxLoop_column hmx]
      rw [if_neg]
      · exact ⟨_, rfl⟩
      · intro hany
        rw [List.any_eq_true] at hany
        obtain ⟨st, hst, he⟩ := hany
        obtain ⟨g, hg, rfl⟩ := List.mem_map.1 hst
        exact h ((hl g hg).1 (by simpa using he))

/-- A file with a blank line, a line that is too short, and a repeated word. -/
example : ∃ res, extractIndexing "a x\n\n b\nb  x 3\na y".toList [0, 1] = .ok res := by
  refine (C55_error _ _).2 (by simp) ?_
  intro h
  exact absurd (congrArg List.length h) (by decide)

example : columnOf "a x\n\n b\nb  x 3\na y".toList [0, 1] 1 = ["x".toList, "x".toList, "y".toList] := by decide

/-! ## C56 -/

/-- **C56** Reading an `sm` file whose records all have at least three fields (and a numeral where both strings are
known) gives the sparse matrix whose cell for row string `w1` and column string `w2` is the sum of the counts of all
records for that pair; records with unknown strings have no influence. -/
theorem C56_sum_of_counts {io : NumIO} {rows cols : List Str} {row2id col2id : Dict Str ℤ} (hr : IndexOf rows row2id)
    (hc : IndexOf cols col2id) {content : Str} (hg : ∀ t ∈ records content, GoodSm io rows cols t) :
    ∃ m, readSparse io content row2id col2id = .ok m ∧ m.ty = .sparse ∧ m.nr = rows.length ∧ m.nc = cols.length ∧
      ∀ i j w1 w2, rows[i]? = some w1 → cols[j]? = some w2 → m.val.get i j = cellSum io content w1 w2 :=
  readSparse_good hr hc hg

/-- **C56** A record with fewer than three fields raises `ValueError`, whatever its strings are; so does a malformed
numeral for known strings. -/
theorem C56_bad_record {io : NumIO} {rows cols : List Str} {row2id col2id : Dict Str ℤ} (hr : IndexOf rows row2id)
    (hc : IndexOf cols col2id) {content : Str}
    (hg : ∃ t ∈ records content, t.length < 3 ∨
      ∃ a b x rest, t = a :: b :: x :: rest ∧ a ∈ rows ∧ b ∈ cols ∧ io.parse x = none) :
    readSparse io content row2id col2id = .error .valueError := by
  apply readSparse_bad hr hc
  obtain ⟨t, ht, h⟩ := hg
  refine ⟨t, ht, ?_⟩
  rintro ⟨a, b, x, rest, rfl, hp⟩
  rcases h with h | ⟨a', b', x', rest', heq, ha, hb, hx⟩
  · simp at h; omega
  · injection heq with h1 heq
    injection heq with h2 heq
    injection heq with h3 heq
    subst h1; subst h2; subst h3
    exact hp ha hb hx

/-- An example file: the first two records are added up, the third is ignored. -/
example : ∃ d1 d2 : Dict Str ℤ, IndexOf ["r".toList] d1 ∧ IndexOf ["c".toList] d2 ∧
    ∀ t ∈ records "r c 1.5 more\nr c 2\nz c what".toList, GoodSm decIO ["r".toList] ["c".toList] t := by
  obtain ⟨d1, h1⟩ := list2dict_of_nodup (l := ["r".toList]) (by simp)
  obtain ⟨d2, h2⟩ := list2dict_of_nodup (l := ["c".toList]) (by simp)
  refine ⟨d1, d2, IndexOf.of_list2dict h1, IndexOf.of_list2dict h2, ?_⟩
  have hrec : records "r c 1.5 more\nr c 2\nz c what".toList =
      [["r".toList, "c".toList, "1.5".toList, "more".toList], ["r".toList, "c".toList, "2".toList],
        ["z".toList, "c".toList, "what".toList]] := by decide
  rw [hrec]
  intro t ht
  simp only [List.mem_cons, List.not_mem_nil, or_false] at ht
  rcases ht with rfl | rfl | rfl
  · refine ⟨_, _, _, _, rfl, fun _ _ => ?_⟩
    exact parseDec_ne_none (c := '1') (t := ['.', '5']) (by decide) (by decide)
  · refine ⟨_, _, _, _, rfl, fun _ _ => ?_⟩
    exact parseDec_ne_none (c := '2') (t := []) (by decide) (by decide)
  · exact ⟨_, _, _, _, rfl, fun h _ => absurd h (by decide)⟩

/-! ## C57 -/

/-- **C57** Reading a `dm` file whose first line has `n + 1 ≥ 2` fields and whose records all have `n + 1` fields gives
the dense matrix in which the row of each listed string holds the numbers of its *first* record, zeros if it has none. -/
theorem C57_first_record {io : NumIO} {rows : List Str} {row2id : Dict Str ℤ} (hr : IndexOf rows row2id)
    (hne : rows ≠ []) {content first : Str} {rest : List Str} (hl : fileLines content = first :: rest) {n : ℕ}
    (hn : 0 < n) (hf : (split first).length = n + 1) (hlen : ∀ t ∈ records content, t.length = n + 1)
    (hnum : ∀ w ∈ rows, ∀ t, firstRecord content w = some t → ∀ x ∈ t.tail, io.parse x ≠ none) :
    ∃ m, readDense io content row2id = .ok m ∧ m.ty = .dense ∧ m.nr = rows.length ∧ m.nc = n ∧
      ∀ i j w, rows[i]? = some w → j < n → m.val.get i j = dmValue io content w j := by
  obtain ⟨m', seen', g1, g2, g3, g4⟩ := denseLoop_good (io := io) hr n (records content)
    (Mat.of rows.length n (fun _ _ => 0)) [] rfl rfl hlen (fun w hw _ t ht => hnum w hw t ht)
  refine ⟨⟨.dense, m'⟩, ?_, rfl, g2, g3, ?_⟩
  · unfold readDense
    rw [hl]
    simp only [split_strip, hf, Nat.add_sub_cancel]
    rw [if_neg (by omega), tokenLines_eq, hr.len, g1, ok_bind]
    unfold TMat.ofNumpy
    rw [if_neg]
    have : 0 < rows.length := List.length_pos_iff.2 hne
    simp only [g2, g3]
    omega
  · intro i j w hw hj
    rw [dmValue_eq, g4 i j w hw hj]
    have hi := (List.getElem?_eq_some_iff.1 hw).1
    rw [if_neg (by simp), Mat.of_get_lt hi hj]

/-- **C57** An empty file raises `StopIteration`; a first line with fewer than two fields raises `ValueError`; a record
with a number of fields different from the first line raises `ValueError`, and so does a malformed numeral in the first
record of a listed string. -/
theorem C57_errors {io : NumIO} {rows : List Str} {row2id : Dict Str ℤ} (hr : IndexOf rows row2id) (content : Str) :
    (fileLines content = [] → readDense io content row2id = .error .stopIteration) ∧
    (∀ first rest, fileLines content = first :: rest →
      ((split first).length < 2 ∨ (∃ t ∈ records content, t.length ≠ (split first).length) ∨
        (∃ w ∈ rows, ∃ t, firstRecord content w = some t ∧ ∃ x ∈ t.tail, io.parse x = none)) →
      readDense io content row2id = .error .valueError) := by
  constructor
  · intro h; unfold readDense; rw [h]
  · intro first rest h hbad
    unfold readDense
    rw [h]
    simp only [split_strip]
    by_cases hs : (split first).length < 2
    · rw [if_pos (by omega)]
    · rw [if_neg (by omega), tokenLines_eq]
      rcases hbad with hbad | ⟨t, ht, hbad⟩ | ⟨w, hw, t, ht, x, hx, hbad⟩
      · exact absurd hbad hs
      · rw [denseLoop_bad_length hr _ (by simp [hr.len]) ⟨t, ht, by omega⟩, error_bind]
      · rw [denseLoop_bad_number hr _ (by simp [hr.len]) ⟨w, hw, by simp, t, ht, x, hx, hbad⟩, error_bind]

/-- An example file with a repeated row and an unknown one. -/
example : ∃ d : Dict Str ℤ, IndexOf ["r".toList] d ∧
    (split "r 1 2\n".toList).length = 1 + 1 + 1 ∧
    (∀ t ∈ records "r 1 2\nr 3 4\nz 1 x\n".toList, t.length = 1 + 1 + 1) ∧
    ∀ w ∈ ["r".toList], ∀ t, firstRecord "r 1 2\nr 3 4\nz 1 x\n".toList w = some t → ∀ x ∈ t.tail,
      decIO.parse x ≠ none := by
  obtain ⟨d1, h1⟩ := list2dict_of_nodup (l := ["r".toList]) (by simp)
  refine ⟨d1, IndexOf.of_list2dict h1, by decide, by decide, ?_⟩
  intro w hw t ht x hx
  rw [List.mem_singleton] at hw
  subst hw
  have : firstRecord "r 1 2\nr 3 4\nz 1 x\n".toList "r".toList = some ["r".toList, "1".toList, "2".toList] := by decide
  rw [this] at ht
  injection ht with ht
  subst ht
  simp only [List.tail_cons, List.mem_cons, List.not_mem_nil, or_false] at hx
  rcases hx with rfl | rfl
  · exact parseDec_ne_none (c := '1') (t := []) (by decide) (by decide)
  · exact parseDec_ne_none (c := '2') (t := []) (by decide) (by decide)

/-! ## C60 -/

/-- **C60** On every well-formed CSR matrix with at least one row the sparse writer produces exactly one line per stored
entry, in storage order: line `p` carries the label of the row `r` with `indptr[r] ≤ p < indptr[r+1]`, the label of column
`indices[p]` and `data[p]` – whatever rows are empty. -/
theorem C60_one_line_per_entry {io : NumIO} {c : Csr ℝ} (h : c.WF) {id2row id2col : List Str}
    (hr : id2row.length = c.nr) (hc : id2col.length = c.nc) (hpos : 0 < c.nr) :
    ∃ lines : List Str, printCsr io c id2row id2col = .ok lines.flatten ∧ lines.length = c.data.length ∧
      ∀ p x, c.data[p]? = some x → ∃ r rl j cl, c.ptr r ≤ p ∧ p < c.ptr (r + 1) ∧ id2row[r]? = some rl ∧
        c.indices[p]? = some j ∧ id2col[j]? = some cl ∧
        lines[p]? = some (rl ++ "\t".toList ++ cl ++ "\t".toList ++ io.fmtF x ++ "\n".toList) := by
  refine ⟨_, printCsr_spec h hr hc hpos, by rw [List.length_map, coo_length h], ?_⟩
  intro p x hx
  obtain ⟨hp, hpx⟩ := List.getElem?_eq_some_iff.1 hx
  obtain ⟨r, e, g1, g2, g3, g4, g5⟩ := coo_pos h hp
  have hz := g4
  unfold Csr.stored at hz
  rw [List.getElem?_zip_eq_some] at hz
  have hj : e.1 < c.nc := h.idx_lt e.1 (List.mem_of_getElem? hz.1)
  refine ⟨r, id2row.getD r [], e.1, id2col.getD e.1 [], g2, g3, getElem?_of_lt [] (by omega), hz.1,
    getElem?_of_lt [] (by omega), ?_⟩
  rw [List.getElem?_map, g5]
  have : e.2 = x := by
    have := hz.2
    rw [hx] at this
    injection this with this
    exact this.symm
  rw [Option.map_some]
  simp only [entryText, this]
  rfl

/-- A CSR matrix whose first, third and last rows are empty. -/
example : (⟨4, 2, [5, 7], [1, 0], [0, 0, 2, 2, 2]⟩ : Csr ℝ).WF where
  len_ptr := rfl
  ptr_zero := rfl
  mono := by intro i hi; interval_cases i <;> simp [Csr.ptr]
  ptr_last := rfl
  len_idx := rfl
  idx_lt := by simp
  nodup := by intro i hi; interval_cases i <;> simp [Csr.rowList, Csr.ptr, Csr.stored]

end Dissect
