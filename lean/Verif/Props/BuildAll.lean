import Verif.Props.Build

/-! # `Space.build` on every combination of files (C130) -/

namespace Dissect
noncomputable section

/-- The label file lists `n` different labels (first words of its lines). -/
def ListsLabels (content : Str) (n : ℕ) : Prop :=
  ∃ l, FirstOcc ((records content).filterMap List.head?) l ∧ l.length = n

/-- What a `dm` data file `dc`, the file `rc` the row labels come from and the column file `cc` must satisfy. -/
structure DmAcceptable (io : NumIO) (dc rc : Str) (cc : Option Str) : Prop where
  /-- there is a row label -/
  rows : records rc ≠ []
  /-- every non-blank line, and the first line, has a label and the same number of further fields, as many as there are
  column labels -/
  width : ∃ n first rest, fileLines dc = first :: rest ∧ 0 < n ∧ (split first).length = n + 1 ∧
    (∀ t ∈ records dc, t.length = n + 1) ∧ ∀ c, cc = some c → ListsLabels c n
  /-- the fields of the lines that are used are numerals -/
  numbers : ∀ t w, t ∈ records rc → t.head? = some w → ∀ u, firstRecord dc w = some u → ∀ x ∈ u.tail, io.parse x ≠ none

/-- What an `sm` data file and the label files must satisfy. -/
structure SmAcceptable (io : NumIO) (dc rc cc : Str) : Prop where
  rows : records rc ≠ []
  cols : records cc ≠ []
  good : ∀ t ∈ records dc, GoodSm io ((records rc).filterMap List.head?) ((records cc).filterMap List.head?) t

/-- A file without a non-blank line gives no labels. -/
theorem extractFirst_none {content : Str} (h : records content = []) : extractFirst content = .error .valueError := by
  have hv : validRecords content [0] = [] := by rw [validRecords, h]; rfl
  unfold extractFirst
  rw [(C55_error content [0]).1 (.inr hv), error_bind]

theorem FirstOcc.length_eq {toks l l' : List Str} (h : FirstOcc toks l) (h' : FirstOcc toks l') : l.length = l'.length :=
  ((List.perm_ext_iff_of_nodup h.nodup h'.nodup).2 (fun w => by rw [h.mem, h'.mem])).length_eq

theorem FirstOcc.nil_iff {content : Str} {l : List Str} (h : FirstOcc ((records content).filterMap List.head?) l) :
    l = [] ↔ records content = [] := by
  constructor
  · intro hl
    by_contra hne
    obtain ⟨l', d, h1, h2, _⟩ := extractFirst_ok hne
    have := h.length_eq h2
    rw [hl] at this
    exact (extractFirst_eq_ok h1).1 (List.length_eq_zero_iff.1 this.symm)
  · intro hr
    rw [hr] at h
    cases l with
    | nil => rfl
    | cons w l => exact absurd ((h.mem w).1 (by simp)) (by simp)

/-- `Space.build` once the row and column labels have been read. -/
theorem build_labels {io : NumIO} {fs : Fs} {a : BuildArgs} {data fmt rowSrc dc rc : Str} {cc : Option Str} {rl : List Str}
    {rd : Dict Str ℤ} {c : Option (List Str × Dict Str ℤ)}
    (hd : a.data = some data) (hf : a.format = some fmt) (hfmt : fmt = fmtDm ∨ fmt = fmtSm)
    (hr : a.rows = some rowSrc ∨ (a.rows = none ∧ rowSrc = data)) (hrc : fs.read rowSrc = .ok rc)
    (hx : extractFirst rc = .ok (rl, rd)) (hc : buildCols fs fmt a.cols = .ok c) :
    Space.build io fs a = (do
      let m ← buildMat io fs fmt data rd (c.getD ([], Dict.empty)).2
      checkCols (c.getD ([], Dict.empty)).1 m
      Space.new m rl (c.getD ([], Dict.empty)).1 (some rd) (some (c.getD ([], Dict.empty)).2) [] none) := by
  unfold Space.build
  rw [hd, hf]
  simp only []
  rw [if_pos hfmt]
  unfold buildWith
  rcases hr with hr | ⟨hr, rfl⟩
  · rw [hr]
    simp only [buildRows, hrc, ok_bind, hx, pure_eq_ok, hc, rowsOrData]
  · rw [hr]
    simp only [buildRows, hrc, ok_bind, hx, hc, rowsOrData]

/-- Without a row label, or with a column file without a label, `build` is refused. -/
theorem build_no_labels {io : NumIO} {fs : Fs} {a : BuildArgs} {data fmt rowSrc rc : Str} {cc : Option Str}
    (hd : a.data = some data) (hf : a.format = some fmt) (hfmt : fmt = fmtDm ∨ fmt = fmtSm)
    (hr : a.rows = some rowSrc ∨ (a.rows = none ∧ rowSrc = data)) (hrc : fs.read rowSrc = .ok rc)
    (hc : (a.cols = none ∧ cc = none) ∨ ∃ f c, a.cols = some f ∧ cc = some c ∧ fs.read f = .ok c)
    (h : records rc = [] ∨ ∃ c, cc = some c ∧ records c = []) : Space.build io fs a = .error .valueError := by
  unfold Space.build
  rw [hd, hf]
  simp only []
  rw [if_pos hfmt]
  unfold buildWith
  have hcols : (∃ x, buildCols fs fmt a.cols = .ok x ∧ ∀ c, cc = some c → records c ≠ []) ∨
      buildCols fs fmt a.cols = .error .valueError := by
    rcases hc with ⟨h1, h2⟩ | ⟨f, c, h1, h2, h3⟩
    · rw [h1]
      unfold buildCols
      by_cases hs : fmt = fmtSm
      · rw [if_pos hs]; exact .inr rfl
      · rw [if_neg hs]; exact .inl ⟨_, rfl, by rw [h2]; simp⟩
    · rw [h1]
      unfold buildCols
      simp only [h3, ok_bind]
      by_cases hn : records c = []
      · rw [extractFirst_none hn]; exact .inr rfl
      · obtain ⟨l, d, e, _⟩ := extractFirst_ok hn
        rw [e]
        refine .inl ⟨_, rfl, ?_⟩
        rw [h2]
        rintro _ hh
        obtain rfl := Option.some.inj hh
        exact hn
  rcases hr with hr | ⟨hr, rfl⟩
  · rw [hr]
    simp only [buildRows, hrc, ok_bind]
    by_cases hn : records rc = []
    · rw [extractFirst_none hn]; rfl
    · obtain ⟨l, d, e, _⟩ := extractFirst_ok hn
      rw [e]
      simp only [ok_bind, pure_eq_ok]
      rcases hcols with ⟨x, hx, hno⟩ | hx
      · exfalso
        rcases h with h | ⟨c, h1, h2⟩
        · exact hn h
        · exact hno c h1 h2
      · rw [hx]; rfl
  · rw [hr]
    simp only [buildRows, ok_bind]
    rcases hcols with ⟨x, hx, hno⟩ | hx
    · have hn : records rc = [] := by
        rcases h with h | ⟨c, h1, h2⟩
        · exact h
        · exact absurd h2 (hno c h1)
      rw [hx]
      simp only [ok_bind, rowsOrData, hrc, extractFirst_none hn]
      rfl
    · rw [hx]; rfl

/-- **C130** `Space.build` for the `dm` format, all files being readable: it returns a space exactly when the files are
acceptable, and otherwise raises `ValueError` (`StopIteration` for an empty data file with label files in order). -/
theorem C130_dm {io : NumIO} {fs : Fs} {a : BuildArgs} {data rowSrc dc rc : Str} {cc : Option Str}
    (hd : a.data = some data) (hf : a.format = some "dm".toList)
    (hr : a.rows = some rowSrc ∨ (a.rows = none ∧ rowSrc = data)) (hdc : fs.read data = .ok dc)
    (hrc : fs.read rowSrc = .ok rc)
    (hc : (a.cols = none ∧ cc = none) ∨ ∃ f c, a.cols = some f ∧ cc = some c ∧ fs.read f = .ok c) :
    (DmAcceptable io dc rc cc → ∃ s, Space.build io fs a = .ok s) ∧
    (¬ DmAcceptable io dc rc cc → Space.build io fs a =
      .error (if fileLines dc = [] ∧ records rc ≠ [] ∧ (∀ c, cc = some c → records c ≠ []) then .stopIteration else .valueError)) := by
  by_cases hlab : records rc = [] ∨ ∃ c, cc = some c ∧ records c = []
  · have hb := build_no_labels (io := io) hd hf (.inl rfl) hr hrc hc hlab
    refine ⟨fun h => ?_, fun _ => ?_⟩
    · exfalso
      rcases hlab with h0 | ⟨c, h1, h2⟩
      · exact h.rows h0
      · obtain ⟨n, first, rest, _, hn, _, _, hl⟩ := h.width
        obtain ⟨l, g1, g2⟩ := hl c h1
        rw [(g1.nil_iff).2 h2] at g2
        exact absurd g2 (by simp; omega)
    · rw [hb, if_neg]
      rintro ⟨_, h1, h2⟩
      rcases hlab with h0 | ⟨c, h3, h4⟩
      · exact h1 h0
      · exact h2 c h3 h4
  · push Not at hlab
    obtain ⟨hrn, hcn⟩ := hlab
    obtain ⟨rl, rd, hx, hocc, hidx⟩ := extractFirst_ok hrn
    have hrl : rl ≠ [] := (extractFirst_eq_ok hx).1
    obtain ⟨c, hcb, hcl, hclab⟩ : ∃ c, buildCols fs fmtDm a.cols = .ok c ∧
        Labels (c.getD ([], Dict.empty)).1 (c.getD ([], Dict.empty)).2 ∧
        ((cc = none ∧ (c.getD ([], Dict.empty)).1 = []) ∨ ∃ t, cc = some t ∧ (c.getD ([], Dict.empty)).1 ≠ [] ∧
          FirstOcc ((records t).filterMap List.head?) (c.getD ([], Dict.empty)).1) := by
      rcases hc with ⟨h1, h2⟩ | ⟨f, t, h1, h2, h3⟩
      · refine ⟨none, ?_, Labels.empty, .inl ⟨h2, rfl⟩⟩
        rw [h1]
        unfold buildCols
        rw [if_neg (by decide)]
      · obtain ⟨cl, cd, e1, e2, e3⟩ := extractFirst_ok (hcn t h2)
        refine ⟨some (cl, cd), ?_, e3.labels, .inr ⟨t, h2, (extractFirst_eq_ok e1).1, e2⟩⟩
        rw [h1]
        unfold buildCols
        simp only [h3, ok_bind, e1, pure_eq_ok]
    rw [build_labels (cc := cc) (dc := dc) hd hf (.inl rfl) hr hrc hx hcb]
    have hmat : ∀ d, buildMat io fs "dm".toList data rd d = readDense io dc rd := by
      intro d
      unfold buildMat
      rw [hdc, ok_bind, if_neg (by decide)]
    rw [hmat]
    obtain ⟨e1, e2⟩ := C57_errors (io := io) hidx dc
    cases hl : fileLines dc with
    | nil =>
      rw [e1 hl]
      refine ⟨fun h => ?_, fun _ => ?_⟩
      · obtain ⟨n, first, rest, hfl, _⟩ := h.width
        rw [hl] at hfl
        cases hfl
      · rw [if_pos ⟨rfl, hrn, hcn⟩]; rfl
    | cons first rest =>
      rw [if_neg (by simp)]
      by_cases hbad : (split first).length < 2 ∨ (∃ t ∈ records dc, t.length ≠ (split first).length) ∨
        (∃ w ∈ rl, ∃ t, firstRecord dc w = some t ∧ ∃ x ∈ t.tail, io.parse x = none)
      · rw [e2 first rest hl hbad]
        refine ⟨fun h => ?_, fun _ => rfl⟩
        exfalso
        obtain ⟨n, first', rest', hfl, hn, hs, hrec, _⟩ := h.width
        rw [hl] at hfl
        injection hfl with hf1 hf2
        subst hf1
        rcases hbad with h1 | ⟨t, ht, h2⟩ | ⟨w, hw, t, ht, x, hx1, hx2⟩
        · omega
        · exact h2 ((hrec t ht).trans hs.symm)
        · obtain ⟨u, hu, hu'⟩ := List.mem_filterMap.1 ((hocc.mem w).1 hw)
          exact h.numbers u w hu hu' t ht x hx1 hx2
      · push Not at hbad
        obtain ⟨b1, b2, b3⟩ := hbad
        obtain ⟨m, m1, _, m3, m4, _⟩ := C57_first_record (io := io) hidx hrl hl (n := (split first).length - 1) (by omega)
          (by omega) (fun t ht => by rw [b2 t ht]; omega) b3
        rw [m1, ok_bind]
        by_cases hcols : (c.getD ([], Dict.empty)).1 ≠ [] ∧ (c.getD ([], Dict.empty)).1.length ≠ m.nc
        · have : checkCols (c.getD ([], Dict.empty)).1 m = .error .valueError := by
            unfold checkCols
            rw [if_pos hcols]
          rw [this]
          refine ⟨fun h => ?_, fun _ => rfl⟩
          exfalso
          rcases hclab with ⟨_, h0⟩ | ⟨t, ht, _, hfo⟩
          · exact hcols.1 h0
          · obtain ⟨n, first', rest', hfl, hn, hs, _, hls⟩ := h.width
            rw [hl] at hfl
            injection hfl with hf1 hf2
            subst hf1
            obtain ⟨l, g1, g2⟩ := hls t ht
            apply hcols.2
            rw [hfo.length_eq g1, g2, m4]
            omega
        · have : checkCols (c.getD ([], Dict.empty)).1 m = .ok () := by
            unfold checkCols
            rw [if_neg hcols]
          rw [this, ok_bind]
          push Not at hcols
          refine ⟨fun _ => ?_, fun h => ?_⟩
          · exact ⟨_, Space.new_ok (Space.resolveMap_some hidx.labels) (Space.resolveMap_some hcl) m3
              (fun hne => (hcols hne).symm) (by simp)⟩
          · exfalso
            apply h
            refine ⟨hrn, ⟨(split first).length - 1, first, rest, hl, by omega, by omega,
              fun t ht => by rw [b2 t ht]; omega, ?_⟩, ?_⟩
            · intro t ht
              rcases hclab with ⟨h0, _⟩ | ⟨t', ht', hne, hfo⟩
              · rw [h0] at ht; cases ht
              · rw [ht] at ht'
                obtain rfl := Option.some.inj ht'
                exact ⟨_, hfo, by rw [hcols hne, m4]⟩
            · intro t w ht hw
              exact b3 w ((hocc.mem w).2 (List.mem_filterMap.2 ⟨t, ht, hw⟩))

/-- **C63** A column file that does not list as many labels as the first line of the `dm` file has numbers is refused with
`ValueError`. -/
theorem C63_column_mismatch {io : NumIO} {fs : Fs} {a : BuildArgs} {data rowSrc colF dc rc cc first : Str} {rest : List Str}
    {n : ℕ} (hd : a.data = some data) (hf : a.format = some "dm".toList)
    (hr : a.rows = some rowSrc ∨ (a.rows = none ∧ rowSrc = data)) (hc : a.cols = some colF) (hdc : fs.read data = .ok dc)
    (hrc : fs.read rowSrc = .ok rc) (hcc : fs.read colF = .ok cc) (hl : fileLines dc = first :: rest)
    (hn : ListsLabels cc n) (hne : (split first).length ≠ n + 1) :
    Space.build io fs a = .error .valueError := by
  rw [(C130_dm (io := io) (cc := some cc) hd hf hr hdc hrc (.inr ⟨colF, cc, hc, rfl, hcc⟩)).2, if_neg (by rw [hl]; simp)]
  rintro ⟨_, ⟨n', first', rest', hfl, _, hs, _, hls⟩, _⟩
  rw [hl] at hfl
  injection hfl with h1 _
  subst h1
  obtain ⟨l, g1, g2⟩ := hn
  obtain ⟨l', g3, g4⟩ := hls cc rfl
  have := g1.length_eq g3
  omega

/-- **C130** `Space.build` for the `sm` format with a column file, all files being readable: it returns a space exactly
when the files are acceptable, and otherwise raises `ValueError`. -/
theorem C130_sm {io : NumIO} {fs : Fs} {a : BuildArgs} {data rowSrc colF dc rc cc : Str}
    (hd : a.data = some data) (hf : a.format = some "sm".toList)
    (hr : a.rows = some rowSrc ∨ (a.rows = none ∧ rowSrc = data)) (hc : a.cols = some colF)
    (hdc : fs.read data = .ok dc) (hrc : fs.read rowSrc = .ok rc) (hcc : fs.read colF = .ok cc) :
    (SmAcceptable io dc rc cc → ∃ s, Space.build io fs a = .ok s) ∧
    (¬ SmAcceptable io dc rc cc → Space.build io fs a = .error .valueError) := by
  by_cases hlab : records rc = [] ∨ records cc = []
  · have hb := build_no_labels (io := io) (cc := some cc) hd hf (.inr rfl) hr hrc (.inr ⟨colF, cc, hc, rfl, hcc⟩)
      (hlab.imp_right (fun h => ⟨cc, rfl, h⟩))
    refine ⟨fun h => ?_, fun _ => hb⟩
    rcases hlab with h0 | h0
    · exact absurd h0 h.rows
    · exact absurd h0 h.cols
  · push Not at hlab
    obtain ⟨hrn, hcn⟩ := hlab
    obtain ⟨rl, rd, r1, r2, r3⟩ := extractFirst_ok hrn
    obtain ⟨cl, cd, c1, c2, c3⟩ := extractFirst_ok hcn
    have hcb : buildCols fs fmtSm a.cols = .ok (some (cl, cd)) := by
      rw [hc]
      unfold buildCols
      simp only [hcc, ok_bind, c1, pure_eq_ok]
    rw [build_labels (cc := some cc) (dc := dc) hd hf (.inr rfl) hr hrc r1 hcb]
    have hmat : buildMat io fs "sm".toList data rd cd = readSparse io dc rd cd := by
      unfold buildMat
      rw [hdc, ok_bind, if_pos (by rfl)]
    simp only [Option.getD_some, hmat]
    by_cases hg : ∀ t ∈ records dc, GoodSm io rl cl t
    · refine ⟨fun _ => ?_, fun h => ?_⟩
      · obtain ⟨m, m1, _, m3, m4, _⟩ := readSparse_good (io := io) r3 c3 hg
        rw [m1, ok_bind]
        have : checkCols cl m = .ok () := by
          unfold checkCols
          rw [if_neg (fun h => h.2 m4.symm)]
        rw [this, ok_bind]
        exact ⟨_, Space.new_ok (Space.resolveMap_some r3.labels) (Space.resolveMap_some c3.labels) m3 (fun _ => m4) (by simp)⟩
      · exfalso
        apply h
        refine ⟨hrn, hcn, fun t ht => ?_⟩
        obtain ⟨x, y, z, rest, e, he⟩ := hg t ht
        exact ⟨x, y, z, rest, e, fun hx hy => he ((r2.mem x).2 hx) ((c2.mem y).2 hy)⟩
    · refine ⟨fun h => ?_, fun _ => ?_⟩
      · exfalso
        apply hg
        intro t ht
        obtain ⟨x, y, z, rest, e, he⟩ := h.good t ht
        exact ⟨x, y, z, rest, e, fun hx hy => he ((r2.mem x).1 hx) ((c2.mem y).1 hy)⟩
      · push Not at hg
        rw [readSparse_bad r3 c3 hg]
        rfl

/-- The file, if one is named, can be read and has a non-blank line. -/
def HasLabels (fs : Fs) (f : Option Str) : Prop := ∀ r, f = some r → ∃ c, fs.read r = .ok c ∧ records c ≠ []

/-- **C130** A missing file is an `IOError`. The row file is read first, then the column file, then the data. -/
theorem C130_missing {io : NumIO} {fs : Fs} {a : BuildArgs} {data fmt f : Str} (hd : a.data = some data)
    (hf : a.format = some fmt) (hfmt : fmt = "dm".toList ∨ fmt = "sm".toList) (hmiss : fs.read f = .error .ioError)
    (h : a.rows = some f ∨ (HasLabels fs a.rows ∧ a.cols = some f) ∨
      (HasLabels fs a.rows ∧ HasLabels fs a.cols ∧ (a.cols = none → fmt = "dm".toList) ∧ data = f)) :
    Space.build io fs a = .error .ioError := by
  unfold Space.build
  rw [hd, hf]
  simp only []
  rw [if_pos (show fmt = fmtDm ∨ fmt = fmtSm from hfmt)]
  unfold buildWith
  have hrows : HasLabels fs a.rows → ∃ x, buildRows fs a.rows = .ok x := by
    intro h
    cases hr : a.rows with
    | none => exact ⟨_, rfl⟩
    | some r =>
      obtain ⟨c, e1, e2⟩ := h r hr
      obtain ⟨l, d, e3, _⟩ := extractFirst_ok e2
      simp only [buildRows, e1, ok_bind, e3, pure_eq_ok]
      exact ⟨_, rfl⟩
  rcases h with h | ⟨h1, h2⟩ | ⟨h1, h2, h3, rfl⟩
  · rw [h]
    simp only [buildRows, hmiss]
    rfl
  · obtain ⟨x, hx⟩ := hrows h1
    rw [hx, h2]
    simp only [ok_bind, buildCols, hmiss]
    rfl
  · obtain ⟨x, hx⟩ := hrows h1
    have hcols : ∃ x, buildCols fs fmt a.cols = .ok x := by
      cases hc : a.cols with
      | none =>
        unfold buildCols
        rw [if_neg (by rw [h3 hc]; decide)]
        exact ⟨_, rfl⟩
      | some c =>
        obtain ⟨cc, e1, e2⟩ := h2 c hc
        obtain ⟨l, d, e3, _⟩ := extractFirst_ok e2
        unfold buildCols
        simp only [e1, ok_bind, e3, pure_eq_ok]
        exact ⟨_, rfl⟩
    obtain ⟨y, hy⟩ := hcols
    rw [hx, hy]
    simp only [ok_bind]
    cases x with
    | none =>
      simp only [rowsOrData, hmiss]
      rfl
    | some x =>
      simp only [rowsOrData, ok_bind, buildMat, hmiss]
      rfl

/-- non-vacuity of C130: a `dm` file with two rows and a blank line, and a file of two column labels. -/
example : DmAcceptable decIO cs!"dog 1 2\n\ncat 3 4\n" cs!"cat\ndog\n" (some cs!"b x\na\n") ∧
    ¬ DmAcceptable decIO cs!"dog 1 2\n\ncat 3 4\n" cs!"cat\ndog\n" (some cs!"b x\na\nc") ∧
    ¬ DmAcceptable decIO cs!"dog 1 2\n\ncat 3\n" cs!"cat\ndog\n" none := by
  have r1 : records cs!"dog 1 2\n\ncat 3 4\n" = [[cs!"dog", cs!"1", cs!"2"], [cs!"cat", cs!"3", cs!"4"]] := by decide
  have r2 : records cs!"cat\ndog\n" = [[cs!"cat"], [cs!"dog"]] := by decide
  have r3 : records cs!"b x\na\n" = [[cs!"b", cs!"x"], [cs!"a"]] := by decide
  have r4 : records cs!"b x\na\nc" = [[cs!"b", cs!"x"], [cs!"a"], [cs!"c"]] := by decide
  have r5 : records cs!"dog 1 2\n\ncat 3\n" = [[cs!"dog", cs!"1", cs!"2"], [cs!"cat", cs!"3"]] := by decide
  have num : ∀ c : Char, c ∈ ['1', '2', '3', '4'] → decIO.parse [c] ≠ none := by
    intro c hc
    simp at hc
    rcases hc with rfl | rfl | rfl | rfl
    · exact parseDec_ne_none (c := '1') (t := []) (by decide) (by decide)
    · exact parseDec_ne_none (c := '2') (t := []) (by decide) (by decide)
    · exact parseDec_ne_none (c := '3') (t := []) (by decide) (by decide)
    · exact parseDec_ne_none (c := '4') (t := []) (by decide) (by decide)
  refine ⟨⟨by rw [r2]; simp, ⟨2, cs!"dog 1 2\n", [cs!"\n", cs!"cat 3 4\n"], by decide, by decide, by decide, by rw [r1]; simp, ?_⟩, ?_⟩,
    fun h => ?_, fun h => ?_⟩
  · rintro _ hc
    obtain rfl := Option.some.inj hc
    refine ⟨[cs!"b", cs!"a"], ?_, rfl⟩
    rw [r3]
    exact ⟨by decide, by simp, by decide⟩
  · intro t w ht hw u hu x hx
    unfold firstRecord at hu
    have hmem := List.mem_of_find?_eq_some hu
    rw [r1] at hmem
    simp only [List.mem_cons, List.not_mem_nil, or_false] at hmem
    rcases hmem with rfl | rfl
    · simp at hx
      rcases hx with rfl | rfl
      · exact num '1' (by simp)
      · exact num '2' (by simp)
    · simp at hx
      rcases hx with rfl | rfl
      · exact num '3' (by simp)
      · exact num '4' (by simp)
  · obtain ⟨n, _, _, _, _, _, hrec, hl⟩ := h.width
    have := hrec [cs!"dog", cs!"1", cs!"2"] (by rw [r1]; simp)
    obtain ⟨l, g1, g2⟩ := hl _ rfl
    have g3 : FirstOcc ((records cs!"b x\na\nc").filterMap List.head?) [cs!"b", cs!"a", cs!"c"] := by
      rw [r4]
      exact ⟨by decide, by simp, by decide⟩
    have := g1.length_eq g3
    simp at *
    omega
  · obtain ⟨n, _, _, _, _, _, hrec, _⟩ := h.width
    have h1 := hrec [cs!"dog", cs!"1", cs!"2"] (by rw [r5]; simp)
    have h2 := hrec [cs!"cat", cs!"3"] (by rw [r5]; simp)
    simp at h1 h2
    omega

end
end Dissect
