import Verif.Props.IoSpace
import Verif.Props.IoFiles
import Verif.Lemmas.FsDirs

/-! # Exporting and building again: C58, C59, C61, C62 -/

namespace Dissect

theorem export_ok {io : NumIO} {fs fs' : Fs} {s : Space Str} {store : Csr ℝ} {pre : Str} {format : Option Str}
    (h : Space.export io fs s store pre format = .ok fs') :
    ∃ fs1 fs2, fs.createParentDirectories pre = .ok fs1 ∧ exportMatrix io fs1 s store pre format = .ok fs2 ∧
      exportRowColumn fs2 s pre = .ok fs' := by
  unfold Space.export at h
  rw [bind_eq_ok] at h
  obtain ⟨fs1, h1, h⟩ := h
  rw [bind_eq_ok] at h
  obtain ⟨fs2, h2, h⟩ := h
  exact ⟨fs1, fs2, h1, h2, h⟩

/-- The first record of a `dm` file with distinct row labels. -/
theorem find_dmLine {io : NumIO} {m : TMat ℝ} {ws : List Str} (hn : ws.Nodup) {i : ℕ} {w : Str}
    (h : ws[i]? = some w) :
    ((List.range ws.length).map (fun k => dmLine io m (ws.getD k []) k)).find?
      (fun t => decide (t.head? = some w)) = some (dmLine io m w i) := by
  have hi := (List.getElem?_eq_some_iff.1 h).1
  have hw : ws.getD i [] = w := by
    rw [getElem?_of_lt [] hi] at h
    injection h
  rw [List.find?_map]
  have hfind : (List.range ws.length).find? ((fun t : List Str => decide (t.head? = some w)) ∘
      fun k => dmLine io m (ws.getD k []) k) = some i := by
    rw [List.find?_range_eq_some]
    refine ⟨by simpa [dmLine] using hw, List.mem_range.2 hi, ?_⟩
    intro j hj
    simp only [Function.comp, dmLine, List.head?_cons, Option.some.injEq, Bool.not_eq_eq_eq_not, Bool.not_true,
      decide_eq_false_iff_not]
    intro hc
    have : ws[j]? = ws[i]? := by rw [getElem?_of_lt [] (by omega : j < ws.length), hc, h]
    have := (List.getElem?_inj (by omega) hn).1 this
    omega
  rw [hfind, Option.map_some, hw]

/-- Reading back the text of `print_cooc_mat_dense_format`. -/
theorem readDense_printDm {io : NumIO} {F : Set ℝ} (laws : io.Laws F) {m : TMat ℝ} {ws : List Str}
    {rd : Dict Str ℤ} (hr : IndexOf ws rd) (hne : ws ≠ []) (hw : ∀ w ∈ ws, IsWord w) (hlen : m.nr = ws.length)
    (hc : 0 < m.nc) (hF : ∀ i j, i < m.nr → j < m.nc → m.val.get i j ∈ F) {txt : Str}
    (htxt : printDm io m ws 0 = .ok txt) :
    (records txt).filterMap List.head? = ws ∧ ∃ m', readDense io txt rd = .ok m' ∧ m'.ty = .dense ∧ m'.val = m.val := by
  rw [printDm_spec hc ws 0 (by omega)] at htxt
  injection htxt with htxt
  have hrec : records txt = (List.range ws.length).map (fun k => dmLine io m (ws.getD k []) k) := by
    rw [← htxt]
    exact records_dm hw (fun i j hi hj => laws.repr_word _ (hF i j hi hj)) (by omega)
  have hpos : 0 < ws.length := List.length_pos_iff.2 hne
  refine ⟨?_, ?_⟩
  · rw [hrec, List.filterMap_map]
    have : (List.head? ∘ fun k => dmLine io m (ws.getD k []) k) = fun k => some (ws.getD k []) := rfl
    rw [this, List.filterMap_eq_map']
    apply List.ext_getElem?
    intro k
    rw [List.getElem?_map]
    by_cases hk : k < ws.length
    · rw [List.getElem?_range hk, Option.map_some, getElem?_of_lt ([] : Str) hk]
    · rw [List.getElem?_eq_none (by simpa using hk), List.getElem?_eq_none (by omega)]
      rfl
  · have hfirst : ∀ w ∈ ws, ∃ i, ws[i]? = some w ∧ firstRecord txt w = some (dmLine io m w i) := by
      intro w hw'
      obtain ⟨i, hi⟩ := List.mem_iff_getElem?.1 hw'
      refine ⟨i, hi, ?_⟩
      unfold firstRecord
      rw [hrec]
      exact find_dmLine hr.nodup hi
    obtain ⟨first, rest, hl, hf⟩ : ∃ first rest, fileLines txt = first :: rest ∧ (split first).length = m.nc + 1 := by
      have hwords : ∀ k ∈ List.range ws.length, ∀ w ∈ dmLine io m (ws.getD k []) (0 + k), IsWord w := by
        intro k hk w hw'
        rw [List.mem_range] at hk
        unfold dmLine at hw'
        rcases List.mem_cons.1 hw' with rfl | hw'
        · exact hw _ (List.mem_of_getElem? (getElem?_of_lt [] hk))
        · obtain ⟨j, hj, rfl⟩ := List.mem_map.1 hw'
          rw [List.mem_range] at hj
          exact laws.repr_word _ (hF _ _ (by omega) hj)
      have e : txt = ((((List.range ws.length).map (fun k => dmLine io m (ws.getD k []) (0 + k))).map
          (joinStr ['\t'])).map (fun l => l ++ ['\n'])).flatten := by
        rw [← htxt]
        simp only [List.map_map]
        rfl
      rw [e, fileLines_flatten]
      · obtain ⟨k, hk⟩ : ∃ k, ws.length = k + 1 := ⟨ws.length - 1, by omega⟩
        rw [hk, List.range_succ_eq_map]
        refine ⟨_, _, rfl, ?_⟩
        rw [split_join (hwords 0 (List.mem_range.2 hpos)) isWs_tab ['\n'] (by simp [isWs_newline])]
        simp [dmLine]
      · intro l hl
        obtain ⟨t, ht, rfl⟩ := List.mem_map.1 hl
        obtain ⟨k, hk, rfl⟩ := List.mem_map.1 ht
        exact joinStr_no_newline (hwords k hk)
    obtain ⟨m', g1, g2, g3, g4, g5⟩ : ∃ m', readDense io txt rd = .ok m' ∧ m'.ty = .dense ∧ m'.nr = ws.length ∧
        m'.nc = m.nc ∧ ∀ i j w, ws[i]? = some w → j < m.nc → m'.val.get i j = dmValue io txt w j := by
      refine C57_first_record hr hne hl hc hf ?_ ?_
      · rw [hrec]
        intro t ht
        obtain ⟨k, _, rfl⟩ := List.mem_map.1 ht
        simp [dmLine]
      · intro w hw' t ht x hx
        obtain ⟨i, hi, h1⟩ := hfirst w hw'
        rw [h1] at ht
        injection ht with ht
        subst ht
        simp only [dmLine, List.tail_cons, List.mem_map, List.mem_range] at hx
        obtain ⟨j, hj, rfl⟩ := hx
        have := (List.getElem?_eq_some_iff.1 hi).1
        rw [laws.repr_parse _ (hF i j (by omega) hj)]
        simp
    refine ⟨m', g1, g2, ?_⟩
    refine Mat.ext' (by have := g3; simp only [TMat.nr] at *; omega) g4 ?_
    intro i j hi hj
    have hi' : i < ws.length := by rw [← g3]; exact hi
    have hj' : j < m.nc := by rw [← g4]; exact hj
    have hwi := getElem?_of_lt ([] : Str) hi'
    rw [g5 i j _ hwi hj']
    have hff : firstRecord txt (ws.getD i []) = some (dmLine io m (ws.getD i []) i) := by
      unfold firstRecord
      rw [hrec]
      exact find_dmLine hr.nodup hwi
    unfold dmValue
    rw [hff]
    simp only [dmLine, List.getElem?_cons_succ, List.getElem?_map, List.getElem?_range hj', Option.map_some]
    rw [laws.repr_parse _ (hF i j (by omega) hj')]
    rfl

/-! ## C58 -/

/-- **C58** Exporting a consistent space (at least one row and one column, labels without whitespace) in `dm` format and
building it again – with or without the row file, with the column file when there are column labels – gives the same
labels and exactly the same values. -/
theorem C58_dm_roundtrip {io : NumIO} {F : Set ℝ} (laws : io.Laws F) {fs fs' : Fs} {s : Space Str} (hs : s.WF)
    (hrw : ∀ w ∈ s.id2row, IsWord w) (hcw : ∀ w ∈ s.id2col, IsWord w) (hne : s.id2row ≠ []) (hc : 0 < s.mat.nc)
    (hF : ∀ i j, i < s.mat.nr → j < s.mat.nc → s.mat.val.get i j ∈ F) {store : Csr ℝ} {pre : Str}
    (hexp : Space.export io fs s store pre (some "dm".toList) = .ok fs') (rows : Option Str)
    (hrows : rows = none ∨ rows = some (rowsFile pre)) :
    ∃ s', Space.build io fs' ⟨some (dmFile pre), some "dm".toList, rows,
        if s.id2col = [] then none else some (colsFile pre)⟩ = .ok s' ∧
      s'.id2row = s.id2row ∧ s'.id2col = s.id2col ∧ IndexOf s.id2row s'.row2id ∧ IndexOf s.id2col s'.col2id ∧
      s'.mat.ty = .dense ∧ s'.mat.val = s.mat.val := by
  obtain ⟨fs1, fs2, h1, h2, h3⟩ := export_ok hexp
  obtain ⟨r1, r2, r3⟩ := exportRowColumn_ok hs h3
  unfold exportMatrix at h2
  simp only [] at h2
  rw [if_pos (by decide)] at h2
  obtain ⟨txt, htxt, h2⟩ := Fs.writeText_ok.1 h2
  have hread : fs'.read (dmFile pre) = .ok txt := by
    rw [dmFile_eq]
    exact r3 _ _ (by decide) (by decide) (by decide) (by decide) (Fs.read_write_same h2)
  have hrn := hs.rows.nodup
  -- the row labels
  obtain ⟨rd, hrd, hbr, hrod⟩ : ∃ rd, IndexOf s.id2row rd ∧ ∃ r, buildRows fs' rows = .ok r ∧
      rowsOrData fs' (dmFile pre) r = .ok (s.id2row, rd) := by
    rcases hrows with rfl | rfl
    · obtain ⟨d0, hd0⟩ := list2dict_of_nodup hrn
      have hkey := (readDense_printDm laws (IndexOf.of_list2dict hd0) hne hrw hs.nrows hc hF htxt).1
      obtain ⟨d, k1, k2⟩ := extractFirst_nodup hne hrn hkey
      refine ⟨d, k2, none, rfl, ?_⟩
      simp only [rowsOrData, hread, ok_bind, k1]
    · obtain ⟨d, k1, k2⟩ := extractFirst_printList hrw hne hrn
      refine ⟨d, k2, some (s.id2row, d), ?_, rfl⟩
      simp only [buildRows, r1, ok_bind, k1, pure_eq_ok]
  obtain ⟨hbr, hrod⟩ := hrod
  obtain ⟨cd, hcd, c, hbc, hcg⟩ : ∃ cd, IndexOf s.id2col cd ∧ ∃ c, buildCols fs' "dm".toList
      (if s.id2col = [] then none else some (colsFile pre)) = .ok c ∧ c.getD ([], Dict.empty) = (s.id2col, cd) := by
    by_cases hcn : s.id2col = []
    · rw [hcn, if_pos rfl]
      exact ⟨Dict.empty, IndexOf.empty, none, rfl, rfl⟩
    · rw [if_neg hcn]
      obtain ⟨d, k1, k2⟩ := extractFirst_printList hcw hcn hs.cols.nodup
      refine ⟨d, k2, some (s.id2col, d), ?_, rfl⟩
      simp only [buildCols, r2 hcn, ok_bind, k1, pure_eq_ok]
  obtain ⟨m', g1, g2, g3⟩ := (readDense_printDm laws hrd hne hrw hs.nrows hc hF htxt).2
  refine ⟨⟨m', s.id2row, s.id2col, rd, cd, [], [m'.nc]⟩, ?_, rfl, rfl, hrd, hcd, g2, g3⟩
  unfold Space.build
  simp only []
  rw [if_pos (by decide)]
  refine buildWith_ok hbr hbc hrod hcg ?_ hrd.labels hcd.labels ?_ ?_
  · unfold buildMat
    rw [hread, ok_bind, if_neg (by decide), g1]
  · simp only [TMat.nr, g3]; exact hs.nrows
  · intro hcn
    simp only [TMat.nc, g3]; exact hs.ncols hcn

/-! ## C59 -/

/-- The text of the sparse writer, for either matrix class, as a list of cells. -/
theorem printSm_cells {io : NumIO} {s : Space Str} (hs : s.WF) (hne : s.id2row ≠ []) (hcn : s.id2col ≠ [])
    {store : Csr ℝ} (hst : s.mat.ty = .sparse → store.WF ∧ store.toMat = s.mat.val) {txt : Str}
    (h : printSm io s.mat store s.id2row s.id2col = .ok txt) :
    ∃ E : List (ℕ × ℕ × ℝ), txt = (E.map (entryText io s.id2row s.id2col)).flatten ∧
      (∀ e ∈ E, e.1 < s.id2row.length ∧ e.2.1 < s.id2col.length ∧
        (e.2.2 = s.mat.val.get e.1 e.2.1 ∨ e.2.2 ∈ store.data ∧ s.mat.ty = .sparse)) ∧
      ∀ f : ℝ → ℝ, f 0 = 0 → ∀ i j, i < s.mat.nr → j < s.mat.nc →
        ((E.filter (fun e => decide (e.1 = i ∧ e.2.1 = j))).map (fun e => f e.2.2)).sum = f (s.mat.val.get i j) := by
  unfold printSm at h
  rw [if_neg hcn] at h
  have hnr := hs.nrows
  have hnc := hs.ncols hcn
  simp only [TMat.nr, TMat.nc] at hnr hnc
  cases hty : s.mat.ty with
  | sparse =>
    rw [hty] at h
    simp only [] at h
    obtain ⟨w1, w2⟩ := hst hty
    have e1 : store.nr = s.mat.val.nr := by rw [← w2]; rfl
    have e2 : store.nc = s.mat.val.nc := by rw [← w2]; rfl
    have hpos : 0 < s.id2row.length := List.length_pos_iff.2 hne
    rw [printCsr_spec w1 (by omega) (by omega) (by omega)] at h
    injection h with h
    refine ⟨store.toCoo.entries, h.symm, ?_, ?_⟩
    · intro e he
      obtain ⟨a, b, c⟩ := coo_mem w1 he
      exact ⟨by omega, by omega, Or.inr ⟨c, rfl⟩⟩
    · intro f hf i j hi hj
      simp only [TMat.nr, TMat.nc] at hi hj
      rw [coo_sum w1 hf (by omega) (by omega), w2]
  | dense =>
    rw [hty] at h
    simp only [] at h
    rw [printDenseSm_spec hnc _ (by
      intro i hi
      have := List.mem_range.1 hi
      simp only [TMat.nr] at this
      omega)] at h
    injection h with h
    refine ⟨nzCells s.mat.val, h.symm, ?_, ?_⟩
    · intro e he
      obtain ⟨a, b, c⟩ := nzCells_mem he
      exact ⟨by omega, by omega, Or.inl c⟩
    · intro f hf i j hi hj
      exact nzCells_sum hf hi hj

/-- **C59** (the part that holds) Exporting a consistent space with row and column labels (no whitespace) in `sm` format
and building it again gives the same labels, a sparse matrix, and every value up to `10^-6`; a value that survives
`float("%f" % x)` comes back unchanged. Not proved, because false (`C59_refuted`): equality of all values. -/
theorem C59_sm_roundtrip_partial {io : NumIO} {F : Set ℝ} (laws : io.Laws F) (h0 : (0 : ℝ) ∈ F) {fs fs' : Fs}
    {s : Space Str} (hs : s.WF) (hrw : ∀ w ∈ s.id2row, IsWord w) (hcw : ∀ w ∈ s.id2col, IsWord w)
    (hne : s.id2row ≠ []) (hcn : s.id2col ≠ [])
    (hF : ∀ i j, i < s.mat.nr → j < s.mat.nc → s.mat.val.get i j ∈ F) {store : Csr ℝ}
    (hst : s.mat.ty = .sparse → store.WF ∧ store.toMat = s.mat.val ∧ ∀ x ∈ store.data, x ∈ F) {pre : Str}
    (hexp : Space.export io fs s store pre (some "sm".toList) = .ok fs') :
    ∃ s', Space.build io fs' ⟨some (smFile pre), some "sm".toList, some (rowsFile pre), some (colsFile pre)⟩ = .ok s' ∧
      s'.id2row = s.id2row ∧ s'.id2col = s.id2col ∧ IndexOf s.id2row s'.row2id ∧ IndexOf s.id2col s'.col2id ∧
      s'.mat.ty = .sparse ∧ s'.mat.nr = s.mat.nr ∧ s'.mat.nc = s.mat.nc ∧
      ∀ i j, i < s.mat.nr → j < s.mat.nc →
        io.parse (io.fmtF (s.mat.val.get i j)) = some (s'.mat.val.get i j) ∧
        |s'.mat.val.get i j - s.mat.val.get i j| ≤ 1 / 1000000 := by
  obtain ⟨fs1, fs2, h1, h2, h3⟩ := export_ok hexp
  obtain ⟨r1, r2, r3⟩ := exportRowColumn_ok hs h3
  unfold exportMatrix at h2
  simp only [] at h2
  rw [if_neg (by decide), if_pos (by decide), if_neg hcn] at h2
  obtain ⟨txt, htxt, h2⟩ := Fs.writeText_ok.1 h2
  have hread : fs'.read (smFile pre) = .ok txt := by
    rw [smFile_eq]
    exact r3 _ _ (by decide) (by decide) (by decide) (by decide) (Fs.read_write_same h2)
  obtain ⟨E, rfl, hE, hsum⟩ := printSm_cells hs hne hcn (fun h => ⟨(hst h).1, (hst h).2.1⟩) htxt
  obtain ⟨rd, k1, hrd⟩ := extractFirst_printList hrw hne hs.rows.nodup
  obtain ⟨cd, k2, hcd⟩ := extractFirst_printList hcw hcn hs.cols.nodup
  have hnr := hs.nrows
  have hnc := hs.ncols hcn
  obtain ⟨m', g1, g2, g3, g4, g5⟩ := readSparse_entries (io := io) hrd hcd hrw hcw (E := E) (by
    intro e he
    obtain ⟨a, b, c⟩ := hE e he
    have hmem : e.2.2 ∈ F := by
      rcases c with c | c
      · rw [c]; exact hF _ _ (by omega) (by omega)
      · exact (hst c.2).2.2 _ c.1
    refine ⟨a, b, laws.fmtF_word _ hmem, ?_⟩
    obtain ⟨y, hy, _⟩ := laws.fmtF_parse _ hmem
    rw [hy]; simp)
  have hz : io.viaF 0 = 0 := by
    unfold NumIO.viaF
    rw [laws.fmtF_small 0 h0 (by norm_num)]
    rfl
  refine ⟨⟨m', s.id2row, s.id2col, rd, cd, [], [m'.nc]⟩, ?_, rfl, rfl, hrd, hcd, g2, by simp only; omega, by simp only; omega, ?_⟩
  · unfold Space.build
    simp only []
    rw [if_pos (by decide)]
    refine buildWith_ok (r := some (s.id2row, rd)) (c := some (s.id2col, cd)) ?_ ?_ rfl rfl ?_ hrd.labels hcd.labels
      (by omega) (fun _ => by omega)
    · simp only [buildRows, r1, ok_bind, k1, pure_eq_ok]
    · simp only [buildCols, r2 hcn, ok_bind, k2, pure_eq_ok]
    · unfold buildMat
      rw [hread, ok_bind, if_pos (by decide), g1]
  · intro i j hi hj
    have := g5 i j (by omega) (by omega)
    rw [hsum io.viaF hz i j hi hj] at this
    obtain ⟨y, hy, hb⟩ := laws.fmtF_parse _ (hF i j hi hj)
    simp only []
    rw [this]
    unfold NumIO.viaF
    rw [hy]
    exact ⟨rfl, hb⟩

/-! ## C62 -/

/-- **C62** (the part that holds) On a consistent file system, for a path with a directory part (a `/`) that does not end
in `/` or `/.`, that is not an existing directory and below no regular file, `save` succeeds: it creates the missing
parent directories, the file then has the saved content and no other file changes. Not proved, because false
(`C62_refuted`): the same for a bare file name. -/
theorem C62_save_partial {fs : Fs} (hok : fs.Ok) {name content : Str} (hs : '/' ∈ name)
    (h1 : ¬ "/".toList <:+ name) (h2 : ¬ "/.".toList <:+ name) (hd : fs.resolve name ∉ fs.dirs)
    (hf : ∀ f ∈ fs.files.keys, f <+: fs.resolve name → f = fs.resolve name) :
    ∃ fs', fs.save content name = .ok fs' ∧ fs'.read name = .ok content ∧
      fs.resolve (dirname name) ∈ fs'.dirs ∧ (∀ d ∈ fs.dirs, d ∈ fs'.dirs) ∧
      ∀ x, x ≠ fs.resolve name → fs'.files.get? x = fs.files.get? x := by
  have hne : name ≠ [] := by rintro rfl; simp at hs
  have t1 := pathSplit_snd_ne_nil hne h1
  have t2 := pathSplit_snd_ne_dot hs h2
  have hres := resolve_file fs t1 t2
  obtain ⟨fs1, g1, g2, g3, g4, g5, g6, g7⟩ := Fs.createParent_ok hok hs (by
    intro f hf' hp
    have heq := hf f hf' (hp.trans ⟨_, hres.symm⟩)
    have := hp.length_le
    rw [heq, hres] at this
    simp at this)
  have hr1 : fs1.resolve name = fs.resolve name := Fs.resolve_cwd g4 name
  obtain ⟨fs', hw⟩ := Fs.write_succeeds (fs := fs1) (c := content) hne h1
    (by
      rw [hr1]
      intro h
      rcases g7 _ h with h | h
      · exact hd h
      · have := h.length_le
        rw [hres] at this
        simp at this)
    (by rw [hr1, hres, List.dropLast_concat]; exact g5)
  obtain ⟨k1, k2, k3, k4⟩ := Fs.write_ok hw
  refine ⟨fs', ?_, Fs.read_write_same hw, by rw [k2]; exact g5, fun d hd => by rw [k2]; exact g6 d hd, ?_⟩
  · unfold Fs.save
    rw [g1, ok_bind, hw]
  · intro x hx
    rw [k4, hr1, if_neg hx, g3]

/-- **C62** Saving under the name of an existing directory, or under a name that ends in a slash, raises `IOError`. -/
theorem C62_directory {fs : Fs} (hok : fs.Ok) {name content : Str} (hs : '/' ∈ name)
    (hd : fs.resolve name ∈ fs.dirs ∨ "/".toList <:+ name)
    (hf : ∀ f ∈ fs.files.keys, ¬ f <+: fs.resolve (dirname name)) : fs.save content name = .error .ioError := by
  have hne : name ≠ [] := by rintro rfl; simp at hs
  obtain ⟨fs1, g1, g2, g3, g4, g5, g6, g7⟩ := Fs.createParent_ok hok hs hf
  unfold Fs.save
  rw [g1, ok_bind]
  unfold Fs.write
  rw [if_pos]
  rcases hd with hd | ⟨t, ht⟩
  · rw [Fs.resolve_cwd g4]; exact Or.inr (Or.inr (Or.inl (g6 _ hd)))
  · refine Or.inr (Or.inl ?_)
    rw [← ht]
    simp

/-- **C62** `create_directories(d)`, for every non-empty name at or above which there is no regular file: afterwards `d` is
a directory, no file has changed, no other directory than `d` and its ancestors has appeared, and calling it again changes
nothing (in particular an existing directory is not created again). -/
theorem C62_create_directories {fs : Fs} (hok : fs.Ok) {d : Str} (hne : d ≠ [])
    (hf : ∀ f ∈ fs.files.keys, ¬ f <+: fs.resolve d) :
    ∃ fs', fs.createDirectories d = .ok fs' ∧ fs.resolve d ∈ fs'.dirs ∧ fs'.files = fs.files ∧ fs'.cwd = fs.cwd ∧
      (∀ x ∈ fs.dirs, x ∈ fs'.dirs) ∧ (∀ x ∈ fs'.dirs, x ∈ fs.dirs ∨ x <+: fs.resolve d) ∧
      fs'.createDirectories d = .ok fs' ∧ (fs.resolve d ∈ fs.dirs → fs' = fs) := by
  have again : ∀ g : Fs, g.resolve d ∈ g.dirs → g.createDirectories d = .ok g := by
    intro g hg
    unfold Fs.createDirectories
    rw [if_pos]
    unfold Fs.exists_
    rw [decide_eq_true_eq]
    exact ⟨hne, Or.inl hg⟩
  by_cases hd : fs.resolve d ∈ fs.dirs
  · exact ⟨fs, again fs hd, hd, rfl, rfl, fun x hx => hx, fun x hx => Or.inl hx, again fs hd, fun _ => rfl⟩
  · have hex : fs.exists_ d = false := by
      by_contra h
      rw [Bool.not_eq_false] at h
      rcases (Fs.exists_of h).2 with h' | h'
      · exact hd h'
      · exact hf _ h' List.prefix_rfl
    obtain ⟨fs1, g1, g2, g3, g4, _, g6, g7⟩ := Fs.makedirs_ok _ fs d le_rfl hok hne hex hf
    refine ⟨fs1, ?_, g2, g4, g3, g6, g7, again fs1 ?_, fun h => absurd h hd⟩
    · unfold Fs.createDirectories
      rw [hex]
      exact g1
    · rw [Fs.resolve_cwd g3]
      exact g2

/-- **C62** (the part that holds, for `export`) Under the same conditions on the prefix and the files to be written,
`export` succeeds in every format for which the matrix can be written. -/
theorem C62_export_partial {io : NumIO} {fs : Fs} (hok : fs.Ok) {s : Space Str} (hs : s.WF) {store : Csr ℝ} {pre : Str}
    (hp : '/' ∈ pre) (hd : ∀ f ∈ [rowsFile pre, colsFile pre, dmFile pre, smFile pre], fs.resolve f ∉ fs.dirs)
    (hf : ∀ f ∈ fs.files.keys, ¬ f <+: fs.resolve (dirname pre)) {format : Option Str}
    (hfmt : format = none ∨ (format = some "dm".toList ∧ 0 < s.mat.nc) ∨
      (format = some "sm".toList ∧ s.id2row ≠ [] ∧ s.id2col ≠ [] ∧
        (s.mat.ty = .sparse → store.WF ∧ store.toMat = s.mat.val))) :
    ∃ fs', Space.export io fs s store pre format = .ok fs' := by
  obtain ⟨fs1, g1, g2, g3, g4, g5, g6, g7⟩ := Fs.createParent_ok hok hp hf
  have key : ∀ (e : Str) (fs2 : Fs) (c : Str), e ≠ [] → '/' ∉ e → fs.resolve (withExt pre e) ∉ fs.dirs →
      fs2.cwd = fs1.cwd → fs2.dirs = fs1.dirs → ∃ fs3, fs2.write (withExt pre e) c = .ok fs3 ∧ fs3.cwd = fs1.cwd ∧
        fs3.dirs = fs1.dirs := by
    intro e fs2 c he hes hnd hcwd hdirs
    have hns : '/' ∉ ['.'] ++ e := by simpa using hes
    have hsp := pathSplit_append pre hns
    rw [← List.append_assoc] at hsp
    change pathSplit (withExt pre e) = _ at hsp
    have hlen : 0 < e.length := List.length_pos_iff.2 he
    have t1 : (pathSplit (withExt pre e)).2 ≠ [] := by rw [hsp]; simp
    have t2 : (pathSplit (withExt pre e)).2 ≠ ['.'] := by
      rw [hsp]
      intro h
      have := congrArg List.length h
      simp at this
      omega
    have hres := resolve_file fs2 t1 t2
    have hdn : dirname (withExt pre e) = dirname pre := by unfold dirname; rw [hsp]
    have hr : ∀ q, fs2.resolve q = fs.resolve q := fun q => Fs.resolve_cwd (hcwd.trans g4) q
    obtain ⟨fs3, hw⟩ := Fs.write_succeeds (fs := fs2) (p := withExt pre e) (c := c) (by simp [withExt])
      (by
        rintro ⟨x, hx⟩
        have := congrArg List.getLast? hx
        rw [List.getLast?_concat] at this
        unfold withExt at this
        rw [List.getLast?_append_of_ne_nil _ he] at this
        exact hes (List.mem_of_getLast? this.symm))
      (by
        rw [hdirs, hr]
        intro h
        rcases g7 _ h with h | h
        · exact hnd h
        · have := h.length_le
          rw [← hr, hres, hdn, hr] at this
          simp at this)
      (by rw [hres, List.dropLast_concat, hdn, hr, hdirs]; exact g5)
    obtain ⟨k1, k2, _, _⟩ := Fs.write_ok hw
    exact ⟨fs3, hw, k1.trans hcwd, k2.trans hdirs⟩
  have hrc : ∀ fs2 : Fs, fs2.cwd = fs1.cwd → fs2.dirs = fs1.dirs → ∃ fs', exportRowColumn fs2 s pre = .ok fs' := by
    intro fs2 c1 c2
    obtain ⟨fs3, w1, w2, w3⟩ : ∃ fs3, exportCols fs2 s pre = .ok fs3 ∧ fs3.cwd = fs1.cwd ∧ fs3.dirs = fs1.dirs := by
      unfold exportCols
      split
      · exact key _ fs2 _ (by decide) (by decide) (by rw [← colsFile_eq]; exact hd _ (by simp)) c1 c2
      · exact ⟨fs2, rfl, c1, c2⟩
    obtain ⟨fs', w4, _⟩ := key ['r', 'o', 'w', 's'] fs3 (printList s.id2row) (by decide) (by decide)
      (by rw [← rowsFile_eq]; exact hd _ (by simp)) w2 w3
    refine ⟨fs', ?_⟩
    unfold exportRowColumn
    rw [w1, ok_bind, w4]
  have fin : ∀ fs2, exportMatrix io fs1 s store pre format = .ok fs2 → fs2.cwd = fs1.cwd → fs2.dirs = fs1.dirs →
      ∃ fs', Space.export io fs s store pre format = .ok fs' := by
    intro fs2 hm c1 c2
    obtain ⟨fs', h⟩ := hrc fs2 c1 c2
    refine ⟨fs', ?_⟩
    unfold Space.export
    rw [g1, ok_bind, hm, ok_bind, h]
  rcases hfmt with rfl | ⟨rfl, hc⟩ | ⟨rfl, hne, hcn, hst⟩
  · exact fin fs1 rfl rfl rfl
  · have := printDm_spec (io := io) hc s.id2row 0 (by have := hs.nrows; omega)
    obtain ⟨fs2, w1, w2, w3⟩ := key fmtDm fs1 _ (by decide) (by decide) (by rw [← dmFile_eq]; exact hd _ (by simp)) rfl rfl
    refine fin fs2 ?_ w2 w3
    unfold exportMatrix
    simp only []
    rw [if_pos (by decide), this, Fs.writeText_of_ok, w1]
  · have hnr := hs.nrows
    have hnc := hs.ncols hcn
    simp only [TMat.nr, TMat.nc] at hnr hnc
    obtain ⟨txt, htxt⟩ : ∃ txt, printSm io s.mat store s.id2row s.id2col = .ok txt := by
      unfold printSm
      rw [if_neg hcn]
      cases hty : s.mat.ty with
      | sparse =>
        obtain ⟨w1, w2⟩ := hst hty
        have e1 : store.nr = s.mat.val.nr := by rw [← w2]; rfl
        have e2 : store.nc = s.mat.val.nc := by rw [← w2]; rfl
        have hpos : 0 < s.id2row.length := List.length_pos_iff.2 hne
        exact ⟨_, printCsr_spec w1 (by omega) (by omega) (by omega)⟩
      | dense =>
        exact ⟨_, printDenseSm_spec hnc _ (by
          intro i hi
          have := List.mem_range.1 hi
          simp only [TMat.nr] at this
          omega)⟩
    obtain ⟨fs2, w1, w2, w3⟩ := key fmtSm fs1 txt (by decide) (by decide) (by rw [← smFile_eq]; exact hd _ (by simp)) rfl rfl
    refine fin fs2 ?_ w2 w3
    unfold exportMatrix
    simp only []
    rw [if_neg (by decide), if_pos (by decide), if_neg hcn, htxt, Fs.writeText_of_ok, w1]

/-- **C62** (refutation) For a bare file name – no directory part – both `save` and `export` raise `OSError`, in every
file system: `os.path.dirname` is `''`, which does not exist and which `os.makedirs` cannot create. -/
theorem C62_refuted (fs : Fs) {name : Str} (hs : '/' ∉ name) (content : Str) (io : NumIO) (s : Space Str)
    (store : Csr ℝ) (format : Option Str) :
    fs.save content name = .error .osError ∧ Space.export io fs s store name format = .error .osError := by
  have hd : dirname name = [] := (pathSplit_spec name).2.2.2.2.2 hs
  have : fs.createParentDirectories name = .error .osError := by
    unfold Fs.createParentDirectories
    rw [hd, if_neg (by simp [Fs.exists_]), Fs.makedirs]
    rw [dif_neg (by simp [Fs.makedirsSplit, pathSplit])]
    simp [Fs.mkdir]
  constructor
  · unfold Fs.save; rw [this, error_bind]
  · unfold Space.export; rw [this, error_bind]

/-- The file system with just the root, used as the working directory. -/
def fs0 : Fs := ⟨[], [[]], Dict.empty⟩

theorem fs0_ok : fs0.Ok where
  root := by simp [fs0]
  cwd := by simp [fs0]
  parent := by simp [fs0]
  fileParent := by simp [fs0, Dict.empty, Dict.keys]
  disjoint := by simp [fs0, Dict.empty, Dict.keys]

/-- The hypotheses of `C62_save_partial`: two missing directories. -/
example : '/' ∈ "a/b/c.pkl".toList ∧ ¬ "/".toList <:+ "a/b/c.pkl".toList ∧ ¬ "/.".toList <:+ "a/b/c.pkl".toList ∧
    fs0.resolve "a/b/c.pkl".toList ∉ fs0.dirs ∧ fs0.resolve (dirname "a/b/c.pkl".toList) ∉ fs0.dirs ∧
    (∀ f ∈ fs0.files.keys, f <+: fs0.resolve "a/b/c.pkl".toList → f = fs0.resolve "a/b/c.pkl".toList) := by
  refine ⟨by decide, by decide, by decide, by decide, by decide, ?_⟩
  simp [fs0, Dict.empty, Dict.keys]

example : '/' ∉ "model.pkl".toList := by decide

/-! ## C61 -/

/-- **C61** (the part that holds) Without a format, a successful `export` writes the row file, and the column file when
there are column labels; with `format="dm"` it also writes the matrix file: one line per row with the label and the
`repr` of its values. Not proved, because false (`C61_refuted`): that the matrix file is written without a format. -/
theorem C61_label_files_partial {io : NumIO} {fs fs' : Fs} {s : Space Str} (hs : s.WF) {store : Csr ℝ} {pre : Str}
    {format : Option Str} (h : Space.export io fs s store pre format = .ok fs') :
    fs'.read (rowsFile pre) = .ok ((s.id2row.map (fun w => w ++ "\n".toList)).flatten) ∧
    (s.id2col ≠ [] → fs'.read (colsFile pre) = .ok ((s.id2col.map (fun w => w ++ "\n".toList)).flatten)) ∧
    (0 < s.mat.nc → format = some "dm".toList → fs'.read (dmFile pre) = .ok (((List.range s.id2row.length).map (fun i =>
      joinStr "\t".toList (s.id2row.getD i [] :: (List.range s.mat.nc).map (fun j => io.repr (s.mat.val.get i j)))
        ++ "\n".toList)).flatten)) := by
  obtain ⟨fs1, fs2, h1, h2, h3⟩ := export_ok h
  obtain ⟨r1, r2, r3⟩ := exportRowColumn_ok hs h3
  refine ⟨r1, r2, ?_⟩
  rintro hc rfl
  unfold exportMatrix at h2
  simp only [] at h2
  rw [if_pos (by decide)] at h2
  obtain ⟨txt, htxt, h2⟩ := Fs.writeText_ok.1 h2
  rw [dmFile_eq]
  refine r3 _ _ (by decide) (by decide) (by decide) (by decide) ?_
  rw [Fs.read_write_same h2]
  rw [printDm_spec hc s.id2row 0 (by have := hs.nrows; omega)] at htxt
  injection htxt with htxt
  rw [← htxt, List.map_map]
  simp only [Nat.zero_add, dmLine]
  rfl

/-- **C61** (refutation) `export(prefix)` without a format never touches the matrix file: after a successful call
`prefix.dm` has the content it had before (none, if it did not exist). -/
theorem C61_refuted {io : NumIO} {fs fs' : Fs} {s : Space Str} {store : Csr ℝ} {pre : Str}
    (h : Space.export io fs s store pre none = .ok fs') :
    fs'.read (dmFile pre) = fs.read (dmFile pre) ∧ fs'.read (smFile pre) = fs.read (smFile pre) := by
  obtain ⟨fs1, fs2, h1, h2, h3⟩ := export_ok h
  obtain ⟨c1, c2⟩ := Fs.createParent_files h1
  unfold exportMatrix at h2
  injection h2 with h2
  subst h2
  have key : ∀ e : Str, e ≠ [] → '/' ∉ e → e ≠ ['r', 'o', 'w', 's'] → e ≠ ['c', 'o', 'l', 's'] →
      fs'.read (withExt pre e) = fs.read (withExt pre e) := by
    intro e he hsl hr hc
    unfold exportRowColumn at h3
    rw [bind_eq_ok] at h3
    obtain ⟨fs3, h3, h4⟩ := h3
    obtain ⟨k1, k2, k3, k4⟩ := Fs.write_ok h4
    have hmid : fs3.cwd = fs1.cwd ∧ fs3.files.get? (fs1.resolve (withExt pre e)) = fs1.files.get? (fs1.resolve (withExt pre e)) := by
      unfold exportCols at h3
      split at h3
      · obtain ⟨l1, l2, l3, l4⟩ := Fs.write_ok h3
        refine ⟨l1, ?_⟩
        rw [l4, if_neg (resolve_withExt_ne fs1 pre he (by decide) hsl (by decide) hc)]
      · injection h3 with h3
        subst h3
        exact ⟨rfl, rfl⟩
    have hr1 : fs'.resolve (withExt pre e) = fs1.resolve (withExt pre e) :=
      Fs.resolve_cwd (k1.trans hmid.1) _
    have hr2 : fs1.resolve (withExt pre e) = fs.resolve (withExt pre e) := Fs.resolve_cwd c2 _
    unfold Fs.read
    have hne2 : fs1.resolve (withExt pre e) ≠ fs3.resolve (withExt pre ['r', 'o', 'w', 's']) := by
      rw [← Fs.resolve_cwd hmid.1]
      exact resolve_withExt_ne fs3 pre he (by decide) hsl (by decide) hr
    rw [hr1, k4, if_neg hne2, hmid.2, c1, hr2]
  rw [dmFile_eq, smFile_eq]
  exact ⟨key _ (by decide) (by decide) (by decide) (by decide), key _ (by decide) (by decide) (by decide) (by decide)⟩

/-! ## A concrete space -/

/-- A dense 1×1 space. -/
noncomputable def oneCell (x : ℝ) : Space Str :=
  ⟨⟨.dense, Mat.of 1 1 (fun _ _ => x)⟩, ["r".toList], ["c".toList],
    Dict.empty.set "r".toList 0, Dict.empty.set "c".toList 0, [], [1]⟩

theorem oneCell_labels (w : Str) : IndexOf [w] (Dict.empty.set w 0) := by
  intro a v
  rw [Dict.get?_set]
  by_cases h : a = w
  · subst h
    simp only [if_true, Option.some.injEq]
    constructor
    · rintro rfl; exact ⟨0, rfl, rfl⟩
    · rintro ⟨i, rfl, hi⟩
      cases i with
      | zero => rfl
      | succ i => simp at hi
  · rw [if_neg h]
    constructor
    · intro hc; simp [Dict.empty, Dict.get?] at hc
    · rintro ⟨i, rfl, hi⟩
      exfalso
      cases i with
      | zero => simp at hi; exact h hi.symm
      | succ i => simp at hi

theorem oneCell_wf (x : ℝ) : (oneCell x).WF where
  rows := (oneCell_labels _).labels
  cols := (oneCell_labels _).labels
  nrows := rfl
  ncols := fun _ => rfl
  shape := rfl

theorem oneCell_words (x : ℝ) : (∀ w ∈ (oneCell x).id2row, IsWord w) ∧ (∀ w ∈ (oneCell x).id2col, IsWord w) := by
  simp only [oneCell, List.mem_singleton, forall_eq]
  constructor <;> exact ⟨by decide, by decide⟩

/-- Every format can be exported from `fs0` with the prefix `./x`, so that the hypotheses of C58, C59, C61 and C62 are
met. -/
theorem oneCell_export (io : NumIO) (x : ℝ) (store : Csr ℝ) {format : Option Str}
    (h : format = none ∨ format = some "dm".toList ∨ format = some "sm".toList) :
    ∃ fs', Space.export io fs0 (oneCell x) store "./x".toList format = .ok fs' := by
  refine C62_export_partial fs0_ok (oneCell_wf x) (by decide) ?_ ?_ ?_
  · intro f hf
    simp only [List.mem_cons, List.not_mem_nil, or_false] at hf
    rcases hf with rfl | rfl | rfl | rfl <;> decide
  · simp [fs0, Dict.empty, Dict.keys]
  · rcases h with h | h | h
    · exact Or.inl h
    · exact Or.inr (Or.inl ⟨h, Nat.one_pos⟩)
    · refine Or.inr (Or.inr ⟨h, by simp [oneCell], by simp [oneCell], ?_⟩)
      intro hc; cases hc

/-- **C59** (refutation) A value below half a unit of the sixth decimal is lost: whatever the number format (subject to
the laws), the exported and rebuilt space has a zero where the original has `x ≠ 0`. -/
theorem C59_refuted {io : NumIO} {F : Set ℝ} (laws : io.Laws F) (h0 : (0 : ℝ) ∈ F) {x : ℝ} (hx : x ∈ F) (hx0 : x ≠ 0)
    (hsmall : |x| < 1 / 2000000) (store : Csr ℝ) :
    ∃ (fs fs' : Fs) (pre : Str) (s s' : Space Str), s.WF ∧ (∀ w ∈ s.id2row, IsWord w) ∧ (∀ w ∈ s.id2col, IsWord w) ∧
      Space.export io fs s store pre (some "sm".toList) = .ok fs' ∧
      Space.build io fs' ⟨some (smFile pre), some "sm".toList, some (rowsFile pre), some (colsFile pre)⟩ = .ok s' ∧
      s.mat.val.get 0 0 = x ∧ s'.mat.val.get 0 0 = 0 ∧ s'.mat.val ≠ s.mat.val := by
  obtain ⟨fs', he⟩ := oneCell_export io x store (format := some "sm".toList) (Or.inr (Or.inr rfl))
  have hget : (oneCell x).mat.val.get 0 0 = x := Mat.of_get_lt (by omega) (by omega)
  obtain ⟨s', g1, _, _, _, _, _, _, _, g2⟩ := C59_sm_roundtrip_partial laws h0 (oneCell_wf x) (oneCell_words x).1
    (oneCell_words x).2 (by simp [oneCell]) (by simp [oneCell])
    (by
      intro i j hi hj
      have : (oneCell x).mat.val.get i j = x := Mat.of_get_lt hi hj
      rw [this]; exact hx)
    (store := store) (by intro h; cases h) he
  have h1 := (g2 0 0 Nat.one_pos Nat.one_pos).1
  rw [hget, laws.fmtF_small x hx hsmall] at h1
  injection h1 with h1
  refine ⟨fs0, fs', "./x".toList, oneCell x, s', oneCell_wf x, (oneCell_words x).1, (oneCell_words x).2, he, g1, hget,
    h1.symm, ?_⟩
  intro hc
  rw [hc, hget] at h1
  exact hx0 h1.symm

/-- Python's notation for `1e-07`, added to the decimal format. -/
noncomputable def sciIO : NumIO where
  repr x := if x = 1 / 10000000 then "1e-07".toList else fmtDec x
  fmtF := fmtDec
  parse w := if w = "1e-07".toList then some (1 / 10000000) else parseDec w

theorem fmtDec_ne_sci (x : ℝ) : fmtDec x ≠ "1e-07".toList := by
  intro h
  obtain ⟨y, hy, _⟩ := viaDec_bound x
  rw [h] at hy
  have : parseDec "1e-07".toList = none := by
    have e : "1e-07".toList = ['1', 'e', '-', '0', '7'] := by decide
    rw [e]
    unfold parseDec
    unfold parseUnsigned
    simp [isDig]
  rw [this] at hy
  cases hy

/-- A number format obeying the laws on a set that contains `10^-7`. -/
theorem sciIO_laws : sciIO.Laws ({x | ∃ k : ℤ, x = k / 1000000} ∪ {1 / 10000000}) where
  repr_word := by
    intro x _
    unfold sciIO
    simp only []
    split
    · exact ⟨by decide, by decide⟩
    · exact fmtDec_word x
  repr_parse := by
    intro x hx
    unfold sciIO
    simp only []
    by_cases h : x = 1 / 10000000
    · rw [if_pos h, if_pos rfl, h]
    · rw [if_neg h, if_neg (fmtDec_ne_sci x)]
      rcases hx with hx | hx
      · exact fmtDec_exact hx
      · exact absurd hx h
  fmtF_word := fun x _ => fmtDec_word x
  fmtF_parse := by
    intro x _
    obtain ⟨y, h1, h2⟩ := viaDec_bound x
    refine ⟨y, ?_, le_trans h2 (by norm_num)⟩
    unfold sciIO
    simp only []
    rw [if_neg (fmtDec_ne_sci x), h1]
  fmtF_small := by
    intro x _ h
    unfold sciIO
    simp only []
    rw [if_neg (fmtDec_ne_sci x)]
    exact fmtDec_small h

/-- The hypotheses of `C59_refuted` (and of C58, C59) hold for `sciIO` and `x = 10^-7`. -/
example : (0 : ℝ) ∈ ({x | ∃ k : ℤ, x = k / 1000000} ∪ {1 / 10000000} : Set ℝ) ∧
    (1 / 10000000 : ℝ) ∈ ({x | ∃ k : ℤ, x = k / 1000000} ∪ {1 / 10000000} : Set ℝ) ∧
    (1 / 10000000 : ℝ) ≠ 0 ∧ |(1 / 10000000 : ℝ)| < 1 / 2000000 := by
  refine ⟨Or.inl ⟨0, by simp⟩, Or.inr rfl, by norm_num, ?_⟩
  rw [abs_of_pos (by norm_num)]
  norm_num

end Dissect
