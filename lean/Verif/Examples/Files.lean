import Verif.Props.BuildAll
import Verif.Props.RoundTrip
import Verif.Props.CoreSpace

/-! # The theorems on reading and writing files applied to concrete files -/

namespace Dissect
noncomputable section
namespace Examples

/-! ## C55, C56, C57: the readers -/

example : ∃ res, extractIndexing cs!"a x\n\n b\nb  x 3\na y" [0, 1] = .ok res ∧
    ∃ l d, res[1]? = some (l, d) ∧ FirstOcc [cs!"x", cs!"x", cs!"y"] l ∧ IndexOf l d := by
  obtain ⟨res, h⟩ := (C55_error cs!"a x\n\n b\nb  x 3\na y" [0, 1]).2 (by simp)
    (fun h => absurd (congrArg List.length h) (by decide))
  obtain ⟨-, g⟩ := C55_index_structs h
  obtain ⟨l, d, h1, -, h3, h4⟩ := g 1 1 rfl
  have hc : columnOf cs!"a x\n\n b\nb  x 3\na y" [0, 1] 1 = [cs!"x", cs!"x", cs!"y"] := by decide
  rw [hc] at h3
  exact ⟨res, h, l, d, h1, h3, h4⟩

theorem index_one (w : Str) : ∃ d : Dict Str ℤ, IndexOf [w] d := by
  obtain ⟨d, h⟩ := list2dict_of_nodup (l := [w]) (by simp)
  exact ⟨d, IndexOf.of_list2dict h⟩

theorem digit_parses {c : Char} (h : c ∈ ['1', '2', '3', '4', '5']) : decIO.parse [c] ≠ none := by
  simp only [List.mem_cons, List.not_mem_nil, or_false] at h
  rcases h with rfl | rfl | rfl | rfl | rfl
  · exact parseDec_ne_none (c := '1') (t := []) (by decide) (by decide)
  · exact parseDec_ne_none (c := '2') (t := []) (by decide) (by decide)
  · exact parseDec_ne_none (c := '3') (t := []) (by decide) (by decide)
  · exact parseDec_ne_none (c := '4') (t := []) (by decide) (by decide)
  · exact parseDec_ne_none (c := '5') (t := []) (by decide) (by decide)

/-- Two records for the same pair, and one for an unknown row that holds no number. -/
example : ∃ (d1 d2 : Dict Str ℤ) (m : TMat ℝ), readSparse decIO cs!"r c 1 more\nr c 2\nz c what" d1 d2 = .ok m ∧
    m.val.get 0 0 = cellSum decIO cs!"r c 1 more\nr c 2\nz c what" cs!"r" cs!"c" := by
  obtain ⟨d1, h1⟩ := index_one cs!"r"
  obtain ⟨d2, h2⟩ := index_one cs!"c"
  have hrec : records cs!"r c 1 more\nr c 2\nz c what" =
      [[cs!"r", cs!"c", cs!"1", cs!"more"], [cs!"r", cs!"c", cs!"2"], [cs!"z", cs!"c", cs!"what"]] := by decide
  obtain ⟨m, hm, -, -, -, hv⟩ := C56_sum_of_counts (io := decIO) h1 h2 (content := cs!"r c 1 more\nr c 2\nz c what") (by
    rw [hrec]
    intro t ht
    simp only [List.mem_cons, List.not_mem_nil, or_false] at ht
    rcases ht with rfl | rfl | rfl
    · exact ⟨_, _, _, _, rfl, fun _ _ => digit_parses (by simp)⟩
    · exact ⟨_, _, _, _, rfl, fun _ _ => digit_parses (by simp)⟩
    · exact ⟨_, _, _, _, rfl, fun h _ => absurd h (by decide)⟩)
  exact ⟨d1, d2, m, hm, hv 0 0 _ _ rfl rfl⟩

/-- A line with two fields, even for an unknown row. -/
example : ∃ d1 d2 : Dict Str ℤ, readSparse decIO cs!"r c 1\nz c\n" d1 d2 = .error .valueError := by
  obtain ⟨d1, h1⟩ := index_one cs!"r"
  obtain ⟨d2, h2⟩ := index_one cs!"c"
  refine ⟨d1, d2, C56_bad_record h1 h2 ⟨[cs!"z", cs!"c"], by decide, Or.inl (by decide)⟩⟩

/-- The row `r` occurs twice, and the row `z` is not asked for. -/
example : ∃ (d : Dict Str ℤ) (m : TMat ℝ), readDense decIO cs!"r 1 2\nr 3 4\nz 1 x\n" d = .ok m ∧
    m.val.get 0 1 = dmValue decIO cs!"r 1 2\nr 3 4\nz 1 x\n" cs!"r" 1 := by
  obtain ⟨d, h⟩ := index_one cs!"r"
  obtain ⟨m, hm, -, -, -, hv⟩ := C57_first_record (io := decIO) h (by simp) (content := cs!"r 1 2\nr 3 4\nz 1 x\n")
    (first := cs!"r 1 2\n") (rest := [cs!"r 3 4\n", cs!"z 1 x\n"]) (by decide) (n := 2) (by decide) (by decide) (by decide) (by
    intro w hw t ht x hx
    rw [List.mem_singleton] at hw
    subst hw
    have : firstRecord cs!"r 1 2\nr 3 4\nz 1 x\n" cs!"r" = some [cs!"r", cs!"1", cs!"2"] := by decide
    rw [this] at ht
    injection ht with ht
    subst ht
    simp only [List.tail_cons, List.mem_cons, List.not_mem_nil, or_false] at hx
    rcases hx with rfl | rfl
    · exact digit_parses (by simp)
    · exact digit_parses (by simp))
  exact ⟨d, m, hm, hv 0 1 _ rfl (by decide)⟩

/-- An empty file; a file whose second line is too short. -/
example : ∃ d : Dict Str ℤ, readDense decIO [] d = .error .stopIteration ∧
    readDense decIO cs!"r 1 2\ns 3\n" d = .error .valueError := by
  obtain ⟨d, h⟩ := index_one cs!"r"
  refine ⟨d, (C57_errors h []).1 rfl, (C57_errors h cs!"r 1 2\ns 3\n").2 cs!"r 1 2\n" [cs!"s 3\n"] (by decide)
    (Or.inr (Or.inl ⟨[cs!"s", cs!"3"], by decide, by decide⟩))⟩

/-! ## C60: the sparse writer -/

/-- A CSR matrix whose first, third and last rows are empty. -/
def csr4 : Csr ℝ := ⟨4, 2, [5, 7], [1, 0], [0, 0, 2, 2, 2]⟩

theorem csr4_wf : csr4.WF where
  len_ptr := rfl
  ptr_zero := rfl
  mono := by
    intro i hi
    have : i < 4 := hi
    interval_cases i <;> simp [csr4, Csr.ptr]
  ptr_last := rfl
  len_idx := rfl
  idx_lt := by simp [csr4]
  nodup := by
    intro i hi
    have : i < 4 := hi
    interval_cases i <;> simp [csr4, Csr.rowList, Csr.ptr, Csr.stored]

example : ∃ lines : List Str, printCsr decIO csr4 [cs!"p", cs!"q", cs!"r", cs!"s"] [cs!"a", cs!"b"] = .ok lines.flatten ∧
    lines.length = 2 := by
  obtain ⟨lines, h1, h2, -⟩ := C60_one_line_per_entry (io := decIO) csr4_wf (id2row := [cs!"p", cs!"q", cs!"r", cs!"s"])
    (id2col := [cs!"a", cs!"b"]) rfl rfl (by decide)
  exact ⟨lines, h1, h2⟩

/-! ## C63, C97, C98, C130: building a space from files -/

example := C63_missing_arguments decIO exPerFs ⟨some cs!"d.sm", none, none, some cs!"d.cols"⟩ (Or.inr (Or.inl rfl))
example := C63_sm_needs_columns decIO exPerFs ⟨some cs!"d.sm", some "sm".toList, none, none⟩ rfl rfl (fun _ h => by cases h)

/-- What `C63_built_space` and `C97_sm` say of the file `w a 5` with the columns `b, a`. -/
example : ∃ s, Space.build decIO exPerFs ⟨some cs!"d.sm", some "sm".toList, none, some cs!"d.cols"⟩ = .ok s ∧ s.WF ∧
    s.elemShape = [s.mat.nc] ∧
    ∀ i j w c, s.id2row[i]? = some w → s.id2col[j]? = some c → s.mat.val.get i j = cellSum decIO cs!"w a 5\n" w c := by
  obtain ⟨s, h⟩ := exPer_build
  obtain ⟨h1, -, h3, -⟩ := C63_built_space h
  exact ⟨s, h, h1, h3, (C97_sm h rfl rfl rfl).2⟩

/-- A disk with a `dm` file, a list of row labels and two lists of column labels. -/
def dmFs : Fs := ⟨[], [[]],
  ((((Dict.empty).set [cs!"d.dm"] cs!"dog 1 2\n\ncat 3 4\n").set [cs!"d.rows"] cs!"cat\ndog\n").set [cs!"d.cols"]
    cs!"b x\na\n").set [cs!"bad.cols"] cs!"b x\na\nc"⟩

theorem dm_records : records cs!"dog 1 2\n\ncat 3 4\n" = [[cs!"dog", cs!"1", cs!"2"], [cs!"cat", cs!"3", cs!"4"]] := by decide
theorem rows_records : records cs!"cat\ndog\n" = [[cs!"cat"], [cs!"dog"]] := by decide
theorem cols_records : records cs!"b x\na\n" = [[cs!"b", cs!"x"], [cs!"a"]] := by decide

theorem dm_acceptable : DmAcceptable decIO cs!"dog 1 2\n\ncat 3 4\n" cs!"cat\ndog\n" (some cs!"b x\na\n") := by
  refine ⟨by rw [rows_records]; simp, ⟨2, cs!"dog 1 2\n", [cs!"\n", cs!"cat 3 4\n"], by decide, by decide, by decide,
    by rw [dm_records]; simp, ?_⟩, ?_⟩
  · rintro _ hc
    obtain rfl := Option.some.inj hc
    refine ⟨[cs!"b", cs!"a"], ?_, rfl⟩
    rw [cols_records]
    exact ⟨by decide, by simp, by decide⟩
  · intro t w ht hw u hu x hx
    unfold firstRecord at hu
    have hmem := List.mem_of_find?_eq_some hu
    rw [dm_records] at hmem
    simp only [List.mem_cons, List.not_mem_nil, or_false] at hmem
    rcases hmem with rfl | rfl
    · simp at hx
      rcases hx with rfl | rfl
      · exact digit_parses (by simp)
      · exact digit_parses (by simp)
    · simp at hx
      rcases hx with rfl | rfl
      · exact digit_parses (by simp)
      · exact digit_parses (by simp)

/-- The space built from it: the rows in the order of the row file, whose first one, `cat`, has 3 in column `b`. -/
example : ∃ s, Space.build decIO dmFs ⟨some cs!"d.dm", some "dm".toList, some cs!"d.rows", some cs!"d.cols"⟩ = .ok s ∧
    s.WF ∧ ∀ i j w, s.id2row[i]? = some w → j < s.mat.nc →
      s.mat.val.get i j = dmValue decIO cs!"dog 1 2\n\ncat 3 4\n" w j := by
  obtain ⟨s, h⟩ := (C130_dm (io := decIO) (fs := dmFs)
    (a := ⟨some cs!"d.dm", some "dm".toList, some cs!"d.rows", some cs!"d.cols"⟩) (dc := cs!"dog 1 2\n\ncat 3 4\n")
    (rc := cs!"cat\ndog\n") (cc := some cs!"b x\na\n") rfl rfl (Or.inl rfl) rfl rfl (Or.inr ⟨_, _, rfl, rfl, rfl⟩)).1
    dm_acceptable
  exact ⟨s, h, (C63_built_space h).1, C97_dm h rfl rfl rfl⟩

/-- Three column labels for two columns. -/
example : Space.build decIO dmFs ⟨some cs!"d.dm", some "dm".toList, none, some cs!"bad.cols"⟩ = .error .valueError := by
  refine C63_column_mismatch (dc := cs!"dog 1 2\n\ncat 3 4\n") (rc := cs!"dog 1 2\n\ncat 3 4\n") (cc := cs!"b x\na\nc")
    (first := cs!"dog 1 2\n") (rest := [cs!"\n", cs!"cat 3 4\n"]) (n := 3) rfl rfl (Or.inr ⟨rfl, rfl⟩) rfl rfl rfl rfl
    (by decide) ⟨[cs!"b", cs!"a", cs!"c"], ?_, rfl⟩ (by decide)
  have : records cs!"b x\na\nc" = [[cs!"b", cs!"x"], [cs!"a"], [cs!"c"]] := by decide
  rw [this]
  exact ⟨by decide, by simp, by decide⟩

/-- The `dm` file read as an `sm` file: the fields after the labels are no known columns, so they need not be numbers. -/
example : ∃ s, Space.build decIO dmFs ⟨some cs!"d.dm", some "sm".toList, some cs!"d.rows", some cs!"d.cols"⟩ = .ok s := by
  refine (C130_sm (io := decIO) (fs := dmFs) (a := ⟨some cs!"d.dm", some "sm".toList, some cs!"d.rows", some cs!"d.cols"⟩)
    (dc := cs!"dog 1 2\n\ncat 3 4\n") (rc := cs!"cat\ndog\n") (cc := cs!"b x\na\n") rfl rfl (Or.inl rfl) rfl rfl rfl rfl).1
    ⟨by rw [rows_records]; simp, by rw [cols_records]; simp, ?_⟩
  rw [dm_records]
  intro t ht
  simp only [List.mem_cons, List.not_mem_nil, or_false] at ht
  rcases ht with rfl | rfl
  · exact ⟨_, _, _, _, rfl, fun _ _ => digit_parses (by simp)⟩
  · exact ⟨_, _, _, _, rfl, fun _ _ => digit_parses (by simp)⟩

/-- The column file does not exist. -/
example : Space.build decIO dmFs ⟨some cs!"d.dm", some "dm".toList, some cs!"d.rows", some cs!"no.cols"⟩ = .error .ioError :=
  C130_missing (f := cs!"no.cols") rfl rfl (Or.inl rfl) rfl (Or.inr (Or.inl ⟨fun r h => by
    obtain rfl := Option.some.inj h
    exact ⟨cs!"cat\ndog\n", rfl, by rw [rows_records]; simp⟩, rfl⟩))

/-- A peripheral space whose column file lists the columns in the order of the core. -/
theorem per_core : ∃ core : Space Str, core.WF ∧ core.ops = [] ∧ core.id2col = [cs!"b", cs!"a"] ∧ core.mat.nc = 2 := by
  obtain ⟨core, hcore⟩ := (C01_accepts_iff (⟨.sparse, Mat.of 1 2 (fun _ _ => 1)⟩ : TMat ℝ) [cs!"v"] [cs!"b", cs!"a"] none none
    [] none).2 ⟨by simp, by simp, by simp, by simp, rfl, fun _ => rfl, by simp⟩
  obtain ⟨h0, h1, h2, h3, h4, h5, _⟩ := C01_result _ _ _ _ _ _ _ core hcore
  exact ⟨core, h0, h4, h3, by rw [h1]; rfl⟩

example : ∃ core p : Space Str,
    Periph.build decIO exPerFs core ⟨some cs!"d.sm", some "sm".toList, none, some cs!"d.cols"⟩ = .ok p ∧
    p.id2col = core.id2col ∧ (∀ i j w c, p.id2row[i]? = some w → p.id2col[j]? = some c →
      p.mat.val.get i j = cellSum decIO cs!"w a 5\n" w c) ∧ p.mat.nc = 2 := by
  obtain ⟨core, h0, h4, h3, hn⟩ := per_core
  obtain ⟨sp, hsp⟩ := exPer_build
  obtain ⟨w1, -, -, ⟨src, rc, hs1, hs2, hs3, hs4⟩, -, w6⟩ := C63_built_space hsp
  obtain ⟨cc, c1, c2, -, -, c5⟩ := w6 _ rfl
  have hrec2 : records cs!"b\na\n" = [[cs!"b"], [cs!"a"]] := by decide
  have hcc : cc = cs!"b\na\n" := by
    have : exPerFs.read cs!"d.cols" = .ok cs!"b\na\n" := rfl
    rw [this] at c1; injection c1 with c1; exact c1.symm
  subst hcc
  rw [hrec2] at c2
  have hcl := c2.eq_of_nodup (by decide)
  have hlr := hs4.labels
  have hp : Periph.new core sp.mat sp.id2row (some sp.row2id) =
      .ok ⟨sp.mat, sp.id2row, core.id2col, sp.row2id, core.col2id, core.ops, [sp.mat.nc]⟩ := by
    refine periphNew_ok (by rw [h4]; rfl) (by rw [h4]; rfl) (Space.resolveMap_some hlr) ?_
    rw [Space.shapeCheck_ok_iff hlr h0.cols]
    refine ⟨w1.nrows, fun _ => ?_⟩
    rw [← c5, hcl, h3]; rfl
  have hb : Periph.build decIO exPerFs core ⟨some cs!"d.sm", some "sm".toList, none, some cs!"d.cols"⟩ =
      .ok ⟨sp.mat, sp.id2row, core.id2col, sp.row2id, core.col2id, core.ops, [sp.mat.nc]⟩ := by
    unfold Periph.build
    rw [hsp, ok_bind, hp]
  obtain ⟨g1, g2⟩ := C98_partial (content := cs!"w a 5\n") (cc := cs!"b\na\n") hb h4 rfl rfl rfl rfl rfl
    (by rw [h3, hrec2]; rfl) (by rw [h3]; decide)
  obtain ⟨-, colF, cc', cl, hF, hr, hfo, hnc, -⟩ := C98_positional (content := cs!"w a 5\n") hb h4 rfl rfl rfl
  obtain rfl := Option.some.inj hF
  have : exPerFs.read cs!"d.cols" = .ok cs!"b\na\n" := rfl
  rw [this] at hr
  injection hr with hr
  subst hr
  rw [hrec2] at hfo
  have := hfo.eq_of_nodup (by decide)
  exact ⟨core, _, hb, g1, g2, by rw [hnc, this]; rfl⟩

/-! ## C58, C59, C61, C62: writing and reading back -/

theorem str_space (ty : MTy) : ∃ s : Space Str, s.WF ∧ s.mat = exMat ty ∧ s.id2row = [cs!"dog", cs!"cat"] ∧
    s.id2col = [cs!"a", cs!"b", cs!"c"] := by
  obtain ⟨s, hs⟩ := (C01_accepts_iff (exMat ty) [cs!"dog", cs!"cat"] [cs!"a", cs!"b", cs!"c"] none none [] none).2
    ⟨by simp, by simp, by simp, by simp, rfl, fun _ => rfl, by simp⟩
  obtain ⟨h0, h1, h2, h3, -⟩ := C01_result _ _ _ _ _ _ _ s hs
  exact ⟨s, h0, h1, h2, h3⟩

theorem exMat_printable (ty : MTy) (i j : ℕ) : (exMat ty).val.get i j ∈ {x : ℝ | ∃ k : ℤ, x = k / 1000000} := by
  simp only [exMat, Mat.of_get]
  split
  · exact ⟨((i + 2 * j : ℕ) : ℤ) * 1000000, by push_cast; ring⟩
  · exact ⟨0, by simp⟩

theorem word {w : Str} (h : w ≠ [] ∧ ∀ c ∈ w, isWs c = false) : IsWord w := h

/-- Exporting into a directory that does not exist succeeds in every format. -/
theorem str_export {fmt : Str} (hfmt : fmt = "dm".toList ∨ fmt = "sm".toList) {s : Space Str} (h0 : s.WF)
    (hm : s.mat = exMat .dense) (hr : s.id2row = [cs!"dog", cs!"cat"]) (hc : s.id2col = [cs!"a", cs!"b", cs!"c"]) :
    ∃ fs', Space.export decIO fs0 s csr4 cs!"out/animals" (some fmt) = .ok fs' := by
  refine C62_export_partial fs0_ok h0 (by decide) ?_ (by simp [fs0, Dict.empty, Dict.keys]) ?_
  · intro f hf
    simp only [List.mem_cons, List.not_mem_nil, or_false] at hf
    rcases hf with rfl | rfl | rfl | rfl <;> decide
  · rcases hfmt with rfl | rfl
    · exact Or.inr (Or.inl ⟨rfl, by rw [hm]; decide⟩)
    · exact Or.inr (Or.inr ⟨rfl, by rw [hr]; simp, by rw [hc]; simp, by rw [hm]; intro h; cases h⟩)

example : ∃ (s s' : Space Str) (fs' : Fs), Space.export decIO fs0 s csr4 cs!"out/animals" (some "dm".toList) = .ok fs' ∧
    Space.build decIO fs' ⟨some cs!"out/animals.dm", some "dm".toList, none, some cs!"out/animals.cols"⟩ = .ok s' ∧
    s'.mat.val = (exMat .dense).val ∧ fs'.read cs!"out/animals.cols" = .ok cs!"a\nb\nc\n" := by
  obtain ⟨s, h0, hm, hr, hc⟩ := str_space .dense
  obtain ⟨fs', he⟩ := str_export (Or.inl rfl) h0 hm hr hc
  obtain ⟨s', hb, -, -, -, -, -, hv⟩ := C58_dm_roundtrip decIO_laws h0
    (by rw [hr]; intro w hw; simp at hw; rcases hw with rfl | rfl <;> exact word (by decide))
    (by rw [hc]; intro w hw; simp at hw; rcases hw with rfl | rfl | rfl <;> exact word (by decide))
    (by rw [hr]; simp) (by rw [hm]; decide) (by rw [hm]; intro i j _ _; exact exMat_printable _ i j) he none (Or.inl rfl)
  rw [if_neg (by rw [hc]; simp)] at hb
  have hl := (C61_label_files_partial h0 he).2.1 (by rw [hc]; simp)
  rw [hc] at hl
  exact ⟨s, s', fs', he, hb, by rw [hv, hm], hl⟩

example : ∃ (s s' : Space Str) (fs' : Fs), Space.export decIO fs0 s csr4 cs!"out/animals" (some "sm".toList) = .ok fs' ∧
    Space.build decIO fs' ⟨some cs!"out/animals.sm", some "sm".toList, some cs!"out/animals.rows",
      some cs!"out/animals.cols"⟩ = .ok s' ∧ |s'.mat.val.get 1 2 - (exMat .dense).val.get 1 2| ≤ 1 / 1000000 := by
  obtain ⟨s, h0, hm, hr, hc⟩ := str_space .dense
  obtain ⟨fs', he⟩ := str_export (Or.inr rfl) h0 hm hr hc
  obtain ⟨s', hb, -, -, -, -, -, -, -, hv⟩ := C59_sm_roundtrip_partial decIO_laws ⟨0, by simp⟩ h0
    (by rw [hr]; intro w hw; simp at hw; rcases hw with rfl | rfl <;> exact word (by decide))
    (by rw [hc]; intro w hw; simp at hw; rcases hw with rfl | rfl | rfl <;> exact word (by decide))
    (by rw [hr]; simp) (by rw [hc]; simp) (by rw [hm]; intro i j _ _; exact exMat_printable _ i j)
    (by rw [hm]; intro h; cases h) he
  refine ⟨s, s', fs', he, hb, ?_⟩
  have := (hv 1 2 (by rw [hm]; decide) (by rw [hm]; decide)).2
  rwa [hm] at this

example : ∃ fs', fs0.save cs!"pickled" cs!"a/b/c.pkl" = .ok fs' ∧ fs'.read cs!"a/b/c.pkl" = .ok cs!"pickled" := by
  obtain ⟨fs', h1, h2, -⟩ := C62_save_partial fs0_ok (name := cs!"a/b/c.pkl") (content := cs!"pickled") (by decide) (by decide)
    (by decide) (by decide) (by simp [fs0, Dict.empty, Dict.keys])
  exact ⟨fs', h1, h2⟩

/-- Two missing directories are created. -/
example : ∃ fs', fs0.createDirectories cs!"a/b" = .ok fs' ∧ fs0.resolve cs!"a/b" ∈ fs'.dirs ∧ fs0.resolve cs!"a/b" ∉ fs0.dirs := by
  obtain ⟨fs', h1, h2, -⟩ := C62_create_directories fs0_ok (d := cs!"a/b") (by decide) (by simp [fs0, Dict.empty, Dict.keys])
  exact ⟨fs', h1, h2, by decide⟩

/-- A directory that is created on the way cannot be the file. -/
example : fs0.save cs!"pickled" cs!"a/b/" = .error .ioError :=
  C62_directory fs0_ok (by decide) (.inr (by decide)) (by simp [fs0, Dict.empty, Dict.keys])

example := C62_refuted fs0 (name := cs!"model.pkl") (by decide) cs!"pickled" decIO

end Examples
end
end Dissect
