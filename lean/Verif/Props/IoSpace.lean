import Verif.Lemmas.IoRound
import Verif.Lemmas.Decimal
import Verif.Lemmas.Space

/-! # Building and exporting spaces: C58, C59, C61, C63 -/

namespace Dissect

/-- The file names used by `export` (`space.py:249-250, 280, 588-589`). -/
def rowsFile (pre : Str) : Str := pre ++ ".rows".toList
/-- The column file. -/
def colsFile (pre : Str) : Str := pre ++ ".cols".toList
/-- The matrix file in dense format. -/
def dmFile (pre : Str) : Str := pre ++ ".dm".toList
/-- The matrix file in sparse format. -/
def smFile (pre : Str) : Str := pre ++ ".sm".toList

theorem rowsFile_eq (pre : Str) : rowsFile pre = withExt pre ['r', 'o', 'w', 's'] := by
  simp [rowsFile, withExt]
theorem colsFile_eq (pre : Str) : colsFile pre = withExt pre ['c', 'o', 'l', 's'] := by
  simp [colsFile, withExt]
theorem dmFile_eq (pre : Str) : dmFile pre = withExt pre fmtDm := by simp [dmFile, withExt, fmtDm]
theorem smFile_eq (pre : Str) : smFile pre = withExt pre fmtSm := by simp [smFile, withExt, fmtSm]

theorem resolve_withExt_ne (fs : Fs) (pre : Str) {e1 e2 : Str} (h1 : e1 ≠ []) (h2 : e2 ≠ []) (s1 : '/' ∉ e1)
    (s2 : '/' ∉ e2) (hne : e1 ≠ e2) : fs.resolve (withExt pre e1) ≠ fs.resolve (withExt pre e2) :=
  Fs.resolve_ext_inj fs pre h1 h2 s1 s2 hne

/-- The files after a successful `export` of the row and column lists. -/
theorem exportRowColumn_ok {fs fs' : Fs} {s : Space Str} (hs : s.WF) {pre : Str}
    (h : exportRowColumn fs s pre = .ok fs') :
    fs'.read (rowsFile pre) = .ok (printList s.id2row) ∧
    (s.id2col ≠ [] → fs'.read (colsFile pre) = .ok (printList s.id2col)) ∧
    (∀ e txt, e ≠ [] → '/' ∉ e → e ≠ ['r', 'o', 'w', 's'] → e ≠ ['c', 'o', 'l', 's'] →
      fs.read (withExt pre e) = .ok txt → fs'.read (withExt pre e) = .ok txt) := by
  rw [rowsFile_eq, colsFile_eq]
  unfold exportRowColumn at h
  rw [bind_eq_ok] at h
  obtain ⟨fs1, h1, h2⟩ := h
  unfold exportCols at h1
  refine ⟨Fs.read_write_same h2, ?_, ?_⟩
  · intro hne
    rw [hs.cols.len, if_pos (by simpa using hne)] at h1
    exact Fs.read_write_other h2 (resolve_withExt_ne fs1 pre (by decide) (by decide) (by decide) (by decide) (by decide))
      (Fs.read_write_same h1)
  · intro e txt he hsl hr hc hread
    have : fs1.read (withExt pre e) = .ok txt := by
      split at h1
      · exact Fs.read_write_other h1 (resolve_withExt_ne fs pre he (by decide) hsl (by decide) hc) hread
      · injection h1 with h1; subst h1; exact hread
    exact Fs.read_write_other h2 (resolve_withExt_ne fs1 pre he (by decide) hsl (by decide) hr) this

/-- The part of `build` that follows reading the label files. -/
theorem buildWith_ok {io : NumIO} {fs : Fs} {data fmt : Str} {rows cols : Option Str} {id2row id2col : List Str}
    {rd cd : Dict Str ℤ} {r c : Option (List Str × Dict Str ℤ)} {m : TMat ℝ}
    (hr : buildRows fs rows = .ok r) (hc : buildCols fs fmt cols = .ok c)
    (hrd : rowsOrData fs data r = .ok (id2row, rd)) (hcd : c.getD ([], Dict.empty) = (id2col, cd))
    (hm : buildMat io fs fmt data rd cd = .ok m) (hlr : Labels id2row rd) (hlc : Labels id2col cd)
    (h1 : m.nr = id2row.length) (h2 : id2col ≠ [] → m.nc = id2col.length) :
    buildWith io fs data fmt rows cols = .ok ⟨m, id2row, id2col, rd, cd, [], [m.nc]⟩ := by
  unfold buildWith
  rw [hr, ok_bind, hc, ok_bind, hrd, ok_bind]
  simp only [hcd]
  rw [hm, ok_bind]
  have : checkCols id2col m = .ok () := by
    unfold checkCols
    rw [if_neg]
    rintro ⟨g1, g2⟩
    exact g2 (h2 g1).symm
  rw [this, ok_bind]
  exact Space.new_ok (Space.resolveMap_some hlr) (Space.resolveMap_some hlc) h1 h2 (by simp)

/-! ## C63 -/

/-- **C63** Without `data`, without `format`, or with a format other than `sm`/`dm`, `build` raises `ValueError`. -/
theorem C63_missing_arguments (io : NumIO) (fs : Fs) (a : BuildArgs)
    (h : a.data = none ∨ a.format = none ∨ ∃ f, a.format = some f ∧ f ≠ "dm".toList ∧ f ≠ "sm".toList) :
    Space.build io fs a = .error .valueError := by
  unfold Space.build
  cases hd : a.data with
  | none => rfl
  | some d =>
    cases hf : a.format with
    | none => rfl
    | some f =>
      rcases h with h | h | ⟨g, h1, h2, h3⟩
      · rw [hd] at h; cases h
      · rw [hf] at h; cases h
      · rw [hf] at h1
        injection h1 with h1
        subst h1
        simp only []
        rw [if_neg]
        rintro (h | h)
        · exact h2 (by rw [h]; rfl)
        · exact h3 (by rw [h]; rfl)

/-- **C63** `sm` without a column file raises `ValueError` (provided the row file, if any, can be read). -/
theorem C63_sm_needs_columns (io : NumIO) (fs : Fs) (a : BuildArgs) (hf : a.format = some "sm".toList)
    (hc : a.cols = none)
    (hr : ∀ f, a.rows = some f → ∃ content, fs.read f = .ok content) :
    Space.build io fs a = .error .valueError := by
  unfold Space.build
  cases hd : a.data with
  | none => rfl
  | some d =>
    rw [hf]
    simp only []
    rw [if_pos (by decide)]
    unfold buildWith
    have hcols : buildCols fs "sm".toList a.cols = .error .valueError := by
      rw [hc]; rfl
    cases hrows : a.rows with
    | none =>
      simp only [buildRows, ok_bind]
      rw [hcols, error_bind]
    | some f =>
      obtain ⟨content, hread⟩ := hr f hrows
      simp only [buildRows, hread, ok_bind]
      by_cases hrec : records content = []
      · have : extractFirst content = .error .valueError := by
          unfold extractFirst
          have : extractIndexing content [0] = .error .valueError := by
            unfold extractIndexing
            have hmx : maxField [0] = .ok 0 := rfl
            rw [hmx, ok_bind]
            simp only [idxLoop_column hmx]
            have hcol : columnOf content [0] 0 = [] := by
              rw [columnOf_eq_nil (by simp)]
              unfold validRecords
              rw [hrec]; rfl
            simp [hcol]
          rw [this, error_bind]
        rw [this, error_bind, error_bind]
      · obtain ⟨l, dd, h1, _⟩ := extractFirst_ok hrec
        rw [h1, ok_bind, pure_eq_ok, ok_bind, hcols, error_bind]

theorem extractFirst_eq_ok {content : Str} {l : List Str} {d : Dict Str ℤ} (h : extractFirst content = .ok (l, d)) :
    l ≠ [] ∧ FirstOcc ((records content).filterMap List.head?) l ∧ IndexOf l d := by
  by_cases hrec : records content = []
  · exfalso
    unfold extractFirst extractIndexing at h
    have hmx : maxField [0] = .ok 0 := rfl
    simp only [hmx, ok_bind, idxLoop_column hmx] at h
    have hcol : columnOf content [0] 0 = [] := by
      rw [columnOf_eq_nil (by simp)]
      unfold validRecords
      rw [hrec]; rfl
    simp [hcol] at h
  · obtain ⟨l', d', h1, h2, h3⟩ := extractFirst_ok hrec
    rw [h1] at h
    injection h with h
    injection h with ha hb
    subst ha; subst hb
    refine ⟨?_, h2, h3⟩
    intro hnil
    obtain ⟨t, ts, hts⟩ := List.exists_cons_of_ne_nil hrec
    have ht : t ∈ records content := by rw [hts]; simp
    have hne : t ≠ [] := by
      unfold records at ht
      simpa using (List.mem_filter.1 ht).2
    obtain ⟨w, ws, rfl⟩ := List.exists_cons_of_ne_nil hne
    have : w ∈ l' := (h2.mem w).2 (List.mem_filterMap.2 ⟨w :: ws, ht, rfl⟩)
    rw [hnil] at this
    simp at this

/-- **C63** Whatever `build` returns is a consistent space with an empty history. Its rows are the distinct first fields
of the row file, or of the data file when no row file is given. Without a column file it has no column labels; with one,
its columns are the distinct first fields of that file and the matrix has exactly as many columns. -/
theorem C63_built_space {io : NumIO} {fs : Fs} {a : BuildArgs} {s : Space Str} (h : Space.build io fs a = .ok s) :
    s.WF ∧ s.ops = [] ∧ s.elemShape = [s.mat.nc] ∧
    (∃ rowSrc content, (a.rows = some rowSrc ∨ (a.rows = none ∧ a.data = some rowSrc)) ∧
      fs.read rowSrc = .ok content ∧ FirstOcc ((records content).filterMap List.head?) s.id2row ∧
      IndexOf s.id2row s.row2id) ∧
    (a.cols = none → s.id2col = [] ∧ s.col2id.len = 0 ∧ a.format = some "dm".toList) ∧
    (∀ f, a.cols = some f → ∃ content, fs.read f = .ok content ∧
      FirstOcc ((records content).filterMap List.head?) s.id2col ∧ IndexOf s.id2col s.col2id ∧
      s.id2col ≠ [] ∧ s.id2col.length = s.mat.nc) := by
  unfold Space.build at h
  cases hd : a.data with
  | none => rw [hd] at h; cases h
  | some data =>
    cases hf : a.format with
    | none => rw [hd, hf] at h; cases h
    | some fmt =>
      rw [hd, hf] at h
      simp only [] at h
      split at h
      · rename_i hfmt
        unfold buildWith at h
        simp only [bind_eq_ok] at h
        obtain ⟨r, hr, c, hc, ⟨id2row, rd⟩, hrd, m, hm, _, hck, hnew⟩ := h
        simp only [] at hm hnew hck
        obtain ⟨g1, g2, g3, g4, g5, g6, g7, g8⟩ := Space.new_eq_ok hnew
        have hrd' := (Space.resolveMap_eq_ok g6).2 rd rfl
        have hcd' := (Space.resolveMap_eq_ok g7).2 _ rfl
        refine ⟨g8, g4, by rw [g5, g1]; rfl, ?_, ?_, ?_⟩
        · cases hrows : a.rows with
          | some f =>
            rw [hrows] at hr
            simp only [buildRows, bind_eq_ok] at hr
            obtain ⟨content, hread, ⟨l, d⟩, hx, hr⟩ := hr
            injection hr with hr
            subst hr
            simp only [rowsOrData] at hrd
            injection hrd with hrd
            injection hrd with e1 e2
            subst e1; subst e2
            obtain ⟨_, k2, k3⟩ := extractFirst_eq_ok hx
            refine ⟨f, content, Or.inl rfl, hread, ?_, ?_⟩
            · rw [g2]; exact k2
            · rw [g2, hrd']; exact k3
          | none =>
            rw [hrows] at hr
            simp only [buildRows] at hr
            injection hr with hr
            subst hr
            simp only [rowsOrData, bind_eq_ok] at hrd
            obtain ⟨content, hread, hx⟩ := hrd
            obtain ⟨_, k2, k3⟩ := extractFirst_eq_ok hx
            refine ⟨data, content, Or.inr ⟨rfl, rfl⟩, hread, ?_, ?_⟩
            · rw [g2]; exact k2
            · rw [g2, hrd']; exact k3
        · intro hcols
          rw [hcols] at hc
          simp only [buildCols] at hc
          split at hc
          · cases hc
          · rename_i hnsm
            injection hc with hc
            subst hc
            refine ⟨by rw [g3]; rfl, by rw [hcd']; rfl, ?_⟩
            rcases hfmt with h1 | h1
            · rw [h1]; rfl
            · exact absurd h1 hnsm
        · intro f hcols
          rw [hcols] at hc
          simp only [buildCols, bind_eq_ok] at hc
          obtain ⟨content, hread, ⟨l, d⟩, hx, hc⟩ := hc
          injection hc with hc
          subst hc
          obtain ⟨k1, k2, k3⟩ := extractFirst_eq_ok hx
          simp only [Option.getD_some] at g3 hcd' hck
          refine ⟨content, hread, ?_, ?_, ?_, ?_⟩
          · rw [g3]; exact k2
          · rw [g3, hcd']; exact k3
          · rw [g3]; exact k1
          · rw [g3, g1]
            unfold checkCols at hck
            by_contra hne
            rw [if_pos ⟨k1, hne⟩] at hck
            cases hck
      · cases h

end Dissect
