import Verif.Props.PeriphScript
import Verif.Props.RoundTrip

/-! # C149: building core spaces in two runs; C150: an exported core space as the input of another run -/

namespace Dissect
noncomputable section

/-- The option values of a choice in the order in which the operations are applied. -/
def Choice.opts (c : Choice) : List (Option Str) := [c.w, c.s, c.r, c.n]

/-- The operations of `c` are done in two rounds: the first `p` by `c1`, the others by `c2`. -/
def SplitInto (p : ℕ) (c c1 c2 : Choice) : Prop :=
  ∀ (q : ℕ) (t t1 t2 : Option Str), c.opts[q]? = some t → c1.opts[q]? = some t1 → c2.opts[q]? = some t2 →
    (q < p → t1 = t ∧ NoneLike t2) ∧ (p ≤ q → NoneLike t1 ∧ t2 = t)

theorem wmeans_unique {t : Option Str} {a b : List Trans} (h1 : WMeans t a) (h2 : WMeans t b) : a = b := by
  cases h1 with
  | named h =>
    generalize hu : some _ = u at h2
    cases h2 with
    | named h' =>
      injection hu with hu
      subst hu
      simp only [weightingTable, List.mem_cons, Prod.mk.injEq, List.not_mem_nil, or_false] at h h'
      rcases h with ⟨rfl, rfl⟩ | ⟨rfl, rfl⟩ | ⟨rfl, rfl⟩ | ⟨rfl, rfl⟩ <;> rcases h' with ⟨k, rfl⟩ | ⟨k, rfl⟩ | ⟨k, rfl⟩ | ⟨k, rfl⟩ <;>
        first | rfl | exact absurd k (by decide)
    | skip h' => exact absurd hu.symm (h' _ h)
  | skip h =>
    cases h2 with
    | named h' => exact absurd rfl (h _ h')
    | skip => rfl

theorem nmeans_unique {t : Option Str} {a b : List Trans} (h1 : NMeans t a) (h2 : NMeans t b) : a = b := by
  cases h1 with
  | named h =>
    generalize hu : some _ = u at h2
    cases h2 with
    | named h' =>
      injection hu with hu
      subst hu
      simp only [normalizationTable, List.mem_cons, Prod.mk.injEq, List.not_mem_nil, or_false] at h h'
      rcases h with ⟨rfl, rfl⟩ | ⟨rfl, rfl⟩ <;> rcases h' with ⟨k, rfl⟩ | ⟨k, rfl⟩ <;>
        first | rfl | exact absurd k (by decide)
    | skip h' => exact absurd hu.symm (h' _ h)
  | skip h =>
    cases h2 with
    | named h' => exact absurd rfl (h _ h')
    | skip => rfl

theorem smeans_unique {t : Option Str} {a b : List Trans} (h1 : SMeans t a) (h2 : SMeans t b) : a = b := by
  cases h1 with
  | named h hd hi hk =>
    generalize hu : some _ = u at h2
    cases h2 with
    | named h' hd' hi' hk' =>
      injection hu with hu
      simp only [selectionTable, List.mem_cons, Prod.mk.injEq, List.not_mem_nil, or_false] at h h'
      rcases h with ⟨rfl, rfl⟩ | ⟨rfl, rfl⟩ <;> rcases h' with ⟨rfl, rfl⟩ | ⟨rfl, rfl⟩ <;> simp at hu
      all_goals
        subst hu
        rw [hi] at hi'
        have := ok_inj hi'
        have : _ = _ := Int.ofNat.inj this
        subst this
        rfl
    | skip h' => exact absurd hu.symm (h' _ h _ hd)
  | skip h =>
    cases h2 with
    | named h' hd' => exact absurd rfl (h _ h' _ hd')
    | skip => rfl

theorem rmeans_unique {t : Option Str} (hn : ∀ d, '_' ∉ d → t ≠ some (cs!"nmf_" ++ d)) {a b : List Trans} (h1 : RMeans t a)
    (h2 : RMeans t b) : a = b := by
  cases h1 with
  | svd hd hi hk =>
    generalize hu : some _ = u at h2
    cases h2 with
    | svd hd' hi' hk' =>
      injection hu with hu
      simp at hu
      subst hu
      rw [hi] at hi'
      have : _ = _ := Int.ofNat.inj (ok_inj hi')
      subst this
      rfl
    | nmf => simp at hu
    | skip h' => exact absurd hu.symm (h' _ (by simp) _ hd)
  | nmf _ hd => exact absurd rfl (hn _ hd)
  | skip h =>
    cases h2 with
    | svd hd' => exact absurd rfl (h _ (by simp) _ hd')
    | nmf _ hd' => exact absurd rfl (h _ (by simp) _ hd')
    | skip => rfl

/-- Without NMF the result of a choice is determined. -/
theorem Choice.Result.unique {env : Env} {raw r r' : Space Str} {c : Choice} (hn : ∀ d, '_' ∉ d → c.r ≠ some (cs!"nmf_" ++ d))
    (h : c.Result env raw r) (h' : c.Result env raw r') : r = r' := by
  obtain ⟨a, b, d, e, h1, h2, h3, h4, h5⟩ := h
  obtain ⟨a', b', d', e', k1, k2, k3, k4, k5⟩ := h'
  obtain rfl := wmeans_unique h1 k1
  obtain rfl := smeans_unique h2 k2
  obtain rfl := rmeans_unique hn h3 k3
  obtain rfl := nmeans_unique h4 k4
  rw [h5] at k5
  exact ok_inj k5

/-- The operations of `c`, done in two rounds. -/
theorem SplitInto.result {env : Env} {raw mid res : Space Str} {p : ℕ} {c c1 c2 : Choice} (hs : SplitInto p c c1 c2)
    (h1 : c1.Result env raw mid) (h2 : c2.Result env mid res) : c.Result env raw res := by
  obtain ⟨a, b, d, e, x1, x2, x3, x4, x5⟩ := h1
  obtain ⟨a', b', d', e', y1, y2, y3, y4, y5⟩ := h2
  have q0 := hs 0 c.w c1.w c2.w rfl rfl rfl
  have q1 := hs 1 c.s c1.s c2.s rfl rfl rfl
  have q2 := hs 2 c.r c1.r c2.r rfl rfl rfl
  have q3 := hs 3 c.n c1.n c2.n rfl rfl rfl
  refine ⟨a ++ a', b ++ b', d ++ d', e ++ e', ?_, ?_, ?_, ?_, ?_⟩
  · by_cases hp : 0 < p
    · obtain ⟨z1, z2⟩ := q0.1 hp
      rw [(wskip z2).1 y1, List.append_nil, ← z1]; exact x1
    · obtain ⟨z1, z2⟩ := q0.2 (by omega)
      rw [(wskip z1).1 x1, List.nil_append, ← z2]; exact y1
  · by_cases hp : 1 < p
    · obtain ⟨z1, z2⟩ := q1.1 hp
      rw [(sskip z2).1 y2, List.append_nil, ← z1]; exact x2
    · obtain ⟨z1, z2⟩ := q1.2 (by omega)
      rw [(sskip z1).1 x2, List.nil_append, ← z2]; exact y2
  · by_cases hp : 2 < p
    · obtain ⟨z1, z2⟩ := q2.1 hp
      rw [(rskip z2).1 y3, List.append_nil, ← z1]; exact x3
    · obtain ⟨z1, z2⟩ := q2.2 (by omega)
      rw [(rskip z1).1 x3, List.nil_append, ← z2]; exact y3
  · by_cases hp : 3 < p
    · obtain ⟨z1, z2⟩ := q3.1 hp
      rw [(nskip z2).1 y4, List.append_nil, ← z1]; exact x4
    · obtain ⟨z1, z2⟩ := q3.2 (by omega)
      rw [(nskip z1).1 x4, List.nil_append, ← z2]; exact y4
  · have hl : a ++ a' ++ (b ++ b') ++ (d ++ d') ++ (e ++ e') = (a ++ b ++ d ++ e) ++ (a' ++ b' ++ d' ++ e') := by
      by_cases h0 : 0 < p
      · have ea := (wskip (q0.1 h0).2).1 y1
        by_cases h1 : 1 < p
        · have eb := (sskip (q1.1 h1).2).1 y2
          by_cases h2 : 2 < p
          · have ed := (rskip (q2.1 h2).2).1 y3
            simp [ea, eb, ed]
          · have ee := (nskip (q3.2 (by omega)).1).1 x4
            have ed := (rskip (q2.2 (by omega)).1).1 x3
            simp [ea, eb, ed, ee]
        · have ee := (nskip (q3.2 (by omega)).1).1 x4
          have ed := (rskip (q2.2 (by omega)).1).1 x3
          have eb := (sskip (q1.2 (by omega)).1).1 x2
          simp [ea, eb, ed, ee]
      · have ee := (nskip (q3.2 (by omega)).1).1 x4
        have ed := (rskip (q2.2 (by omega)).1).1 x3
        have eb := (sskip (q1.2 (by omega)).1).1 x2
        have ea := (wskip (q0.2 (by omega)).1).1 x1
        simp [ea, eb, ed, ee]
    rw [hl, applyAll_append', x5]
    exact y5

/-- **C149** Core spaces may be built in two runs of the script: a first run that does the first operations of `c` and a
second one that takes the pickled space as its input (`--input_format=pkl`) and does the others. What the second run stores
is a result of all operations of `c` on the original input. -/
theorem C149_two_runs {L : Lib} {fs fs1 fs2 fs3 : Fs} {pre base base2 fmt outDir outDir2 : Str} {outFormat outFormat2 : Option Str}
    {ws ss rs ns ws2 ss2 rs2 ns2 : List (Option Str)} {gz gz2 : Bool} (hb : IsBase pre base)
    (hdoc : ∀ c, choices ws ss rs ns c → c.Documented) (hdoc2 : ∀ c, choices ws2 ss2 rs2 ns2 c → c.Documented)
    (h1 : buildSpaces L fs pre fmt outDir outFormat ws ss rs ns gz = .ok fs1)
    {p : ℕ} {c c1 c2 : Choice} (hc1 : choices ws ss rs ns c1) (hc2 : choices ws2 ss2 rs2 ns2 c2) (hs : SplitInto p c c1 c2)
    (hdump : ∀ o, fs1.read (coreFile outDir base c1 ++ cs!".pkl") = .ok (L.dump o) → L.undump (L.dump o) = some o)
    (hkept : fs2.read (coreFile outDir base c1 ++ cs!".pkl") = fs1.read (coreFile outDir base c1 ++ cs!".pkl"))
    (hb2 : IsBase (coreFile outDir base c1) base2)
    (h2 : buildSpaces L fs2 (coreFile outDir base c1) cs!"pkl" outDir2 outFormat2 ws2 ss2 rs2 ns2 gz2 = .ok fs3) :
    ∃ raw res, InputSpace L fs pre gz fmt raw ∧ c.Result L.env raw res ∧
      fs3.read (coreFile outDir2 base2 c2 ++ cs!".pkl") = .ok (L.dump (.space res)) := by
  obtain ⟨raw, k1, k2⟩ := C67_every_combination hb hdoc h1
  obtain ⟨mid, m1, m2⟩ := k2 c1 hc1
  obtain ⟨mid', j1, j2⟩ := C67_every_combination hb2 hdoc2 h2
  obtain ⟨res, r1, r2⟩ := j2 c2 hc2
  have hmid : mid' = mid := by
    have hl : InputSpace L fs2 (coreFile outDir base c1) gz2 cs!"pkl" mid :=
      .pickle ⟨_, by rw [hkept]; exact m2.pickle, hdump _ m2.pickle⟩
    have e := readInput_ok.2 hl
    rw [readInput_ok.2 j1] at e
    exact ok_inj e
  subst hmid
  exact ⟨raw, res, k1, hs.result m1 r1, r2.pickle⟩

/-- **C149** Without NMF (which is random) the two runs leave exactly what one run with all operations leaves. -/
theorem C149_as_one_run {L : Lib} {fs fs1 fs2 fs3 fsA : Fs} {pre base base2 fmt outDir outDir2 outDirA : Str}
    {outFormat outFormat2 outFormatA : Option Str}
    {ws ss rs ns ws2 ss2 rs2 ns2 wsA ssA rsA nsA : List (Option Str)} {gz gz2 : Bool} (hb : IsBase pre base)
    (hdoc : ∀ c, choices ws ss rs ns c → c.Documented) (hdoc2 : ∀ c, choices ws2 ss2 rs2 ns2 c → c.Documented)
    (hdocA : ∀ c, choices wsA ssA rsA nsA c → c.Documented)
    (h1 : buildSpaces L fs pre fmt outDir outFormat ws ss rs ns gz = .ok fs1)
    {p : ℕ} {c c1 c2 : Choice} (hc1 : choices ws ss rs ns c1) (hc2 : choices ws2 ss2 rs2 ns2 c2) (hs : SplitInto p c c1 c2)
    (hdump : ∀ o, fs1.read (coreFile outDir base c1 ++ cs!".pkl") = .ok (L.dump o) → L.undump (L.dump o) = some o)
    (hkept : fs2.read (coreFile outDir base c1 ++ cs!".pkl") = fs1.read (coreFile outDir base c1 ++ cs!".pkl"))
    (hb2 : IsBase (coreFile outDir base c1) base2)
    (h2 : buildSpaces L fs2 (coreFile outDir base c1) cs!"pkl" outDir2 outFormat2 ws2 ss2 rs2 ns2 gz2 = .ok fs3)
    (hc : choices wsA ssA rsA nsA c) (hnmf : ∀ d, '_' ∉ d → c.r ≠ some (cs!"nmf_" ++ d))
    (hA : buildSpaces L fs pre fmt outDirA outFormatA wsA ssA rsA nsA gz = .ok fsA) :
    fs3.read (coreFile outDir2 base2 c2 ++ cs!".pkl") = fsA.read (coreFile outDirA base c ++ cs!".pkl") := by
  obtain ⟨raw, res, k1, k2, k3⟩ := C149_two_runs hb hdoc hdoc2 h1 hc1 hc2 hs hdump hkept hb2 h2
  obtain ⟨raw', j1, j2⟩ := C67_every_combination hb hdocA hA
  have e := readInput_ok.2 k1
  rw [readInput_ok.2 j1] at e
  obtain rfl := ok_inj e
  obtain ⟨res', r1, r2⟩ := j2 c hc
  rw [k3, r2.pickle, k2.unique hnmf r1]

/-! ### C150 -/

theorem exists_of_read {fs : Fs} {p txt : Str} (hp : p ≠ []) (h : fs.read p = .ok txt) : fs.exists_ p = true := by
  unfold Fs.exists_
  unfold Fs.read at h
  rw [if_neg hp] at h
  cases hg : fs.files.get? (fs.resolve p) with
  | none => rw [hg] at h; cases h
  | some t => simp [hp, Dict.contains_iff.2 ⟨t, hg⟩]

theorem build_congr {io : NumIO} {fs fs' : Fs} {data fmt : Str} {rows cols : Option Str} (hd : fs.read data = fs'.read data)
    (hr : ∀ f, rows = some f → fs.read f = fs'.read f) (hc : ∀ f, cols = some f → fs.read f = fs'.read f) :
    Space.build io fs ⟨some data, some fmt, rows, cols⟩ = Space.build io fs' ⟨some data, some fmt, rows, cols⟩ := by
  have e6 : buildRows fs rows = buildRows fs' rows := by
    cases rows with
    | none => rfl
    | some f => simp only [buildRows, hr f rfl]
  have e7 : buildCols fs fmt cols = buildCols fs' fmt cols := by
    cases cols with
    | none => rfl
    | some f => simp only [buildCols, hc f rfl]
  unfold Space.build
  simp only [buildWith, e6, e7, rowsOrData, buildMat, hd]

theorem ext_path (file : Str) {e : Str} : file ++ ['.'] ++ e ≠ [] := by simp

/-- **C150** With the output format `dm`, the files that `build_core_space` exports for a combination are an input for the
scripts (give their common prefix and `--input_format=dm`): the same words, column labels and values are read, provided the
space is not empty, its labels contain no white space and, when it has no column labels, no `.cols` file of an earlier run
lies next to it. -/
theorem C150_dm_partial {L : Lib} {F : Set ℝ} (laws : L.io.Laws F) {fs fs' : Fs} {pre base fmt outDir : Str}
    {ws ss rs ns : List (Option Str)} {gz : Bool} (hb : IsBase pre base)
    (hdoc : ∀ c, choices ws ss rs ns c → c.Documented)
    (h : buildSpaces L fs pre fmt outDir (some cs!"dm") ws ss rs ns gz = .ok fs') {c : Choice} (hc : choices ws ss rs ns c) :
    ∃ raw res, InputSpace L fs pre gz fmt raw ∧ c.Result L.env raw res ∧
      (res.WF → (∀ w ∈ res.id2row, IsWord w) → (∀ w ∈ res.id2col, IsWord w) → res.id2row ≠ [] → 0 < res.mat.nc →
        (∀ i j, i < res.mat.nr → j < res.mat.nc → res.mat.val.get i j ∈ F) →
        (res.id2col = [] → fs'.exists_ (coreFile outDir base c ++ cs!".cols") = false) →
        ∃ s', InputSpace L fs' (coreFile outDir base c) false cs!"dm" s' ∧ s'.id2row = res.id2row ∧ s'.id2col = res.id2col ∧
          s'.mat.ty = .dense ∧ s'.mat.val = res.mat.val) := by
  obtain ⟨raw, k1, k2⟩ := C67_every_combination hb hdoc h
  obtain ⟨res, m1, m2⟩ := k2 c hc
  refine ⟨raw, res, k1, m1, ?_⟩
  intro hwf hrw hcw hne hpos hF hstale
  obtain ⟨g0, g1, _, hexp, hreads⟩ := m2.exported _ rfl
  generalize coreFile outDir base c = file at *
  obtain ⟨fsa, fsb, x1, x2, x3⟩ := export_ok hexp
  obtain ⟨y1, y2, y3⟩ := exportRowColumn_ok hwf x3
  obtain ⟨s', b1, b2, b3, _, _, b6, b7⟩ := C58_dm_roundtrip laws hwf hrw hcw hne hpos hF hexp (some (rowsFile file)) (Or.inr rfl)
  have ed : fs'.read (dmFile file) = g1.read (dmFile file) := by
    have := hreads cs!"dm" (by decide); simpa [dmFile] using this
  have er : fs'.read (rowsFile file) = g1.read (rowsFile file) := by
    have := hreads cs!"rows" (by decide); simpa [rowsFile] using this
  have ec : fs'.read (colsFile file) = g1.read (colsFile file) := by
    have := hreads cs!"cols" (by decide); simpa [colsFile] using this
  refine ⟨s', ?_, b2, b3, b6, b7⟩
  rw [← build_congr (fs := fs') (fs' := g1) ed (by intro f hf; injection hf with hf; subst hf; exact er) (by
    intro f hf
    split at hf
    · cases hf
    · injection hf with hf; subst hf; exact ec)] at b1
  refine InputSpace.dense (rows := some (rowsFile file)) (cols := if res.id2col = [] then none else some (colsFile file))
    (Or.inl ⟨?_, rfl⟩) ?_ ?_
  · exact exists_of_read (by simp) (er.trans y1)
  · by_cases hn : res.id2col = []
    · rw [if_pos hn]
      exact Or.inr ⟨hstale hn, rfl⟩
    · rw [if_neg hn]
      exact Or.inl ⟨exists_of_read (by simp) (ec.trans (y2 hn)), rfl⟩
  · have : dataFile file cs!"dm" false = dmFile file := by simp [dataFile, dmFile]
    rw [this]
    exact b1

/-- **C150** With the output format `sm`: the same labels, and the values up to `10^-6` (six decimals are written). -/
theorem C150_sm_partial {L : Lib} {F : Set ℝ} (laws : L.io.Laws F) (h0 : (0 : ℝ) ∈ F) {fs fs' : Fs} {pre base fmt outDir : Str}
    {ws ss rs ns : List (Option Str)} {gz : Bool} (hb : IsBase pre base)
    (hdoc : ∀ c, choices ws ss rs ns c → c.Documented)
    (h : buildSpaces L fs pre fmt outDir (some cs!"sm") ws ss rs ns gz = .ok fs') {c : Choice} (hc : choices ws ss rs ns c) :
    ∃ raw res, InputSpace L fs pre gz fmt raw ∧ c.Result L.env raw res ∧ res.id2col ≠ [] ∧
      (res.WF → (∀ w ∈ res.id2row, IsWord w) → (∀ w ∈ res.id2col, IsWord w) → res.id2row ≠ [] →
        (∀ i j, i < res.mat.nr → j < res.mat.nc → res.mat.val.get i j ∈ F) →
        (res.mat.ty = .sparse → (L.csr res.mat).WF ∧ (L.csr res.mat).toMat = res.mat.val ∧ ∀ x ∈ (L.csr res.mat).data, x ∈ F) →
        ∃ s', InputSpace L fs' (coreFile outDir base c) false cs!"sm" s' ∧ s'.id2row = res.id2row ∧ s'.id2col = res.id2col ∧
          s'.mat.ty = .sparse ∧ s'.mat.nr = res.mat.nr ∧ s'.mat.nc = res.mat.nc ∧
          ∀ i j, i < res.mat.nr → j < res.mat.nc → |s'.mat.val.get i j - res.mat.val.get i j| ≤ 1 / 1000000) := by
  obtain ⟨raw, k1, k2⟩ := C67_every_combination hb hdoc h
  obtain ⟨res, m1, m2⟩ := k2 c hc
  obtain ⟨g0, g1, _, hexp, hreads⟩ := m2.exported _ rfl
  have hcn : res.id2col ≠ [] := by
    intro hn
    obtain ⟨fsa, fsb, x1, x2, x3⟩ := export_ok hexp
    unfold exportMatrix at x2
    simp only [] at x2
    rw [if_neg (by decide), if_pos (by decide), if_pos hn] at x2
    cases x2
  refine ⟨raw, res, k1, m1, hcn, ?_⟩
  intro hwf hrw hcw hne hF hst
  generalize coreFile outDir base c = file at *
  obtain ⟨fsa, fsb, x1, x2, x3⟩ := export_ok hexp
  obtain ⟨y1, y2, y3⟩ := exportRowColumn_ok hwf x3
  obtain ⟨s', b1, b2, b3, _, _, b6, b7, b8, b9⟩ := C59_sm_roundtrip_partial laws h0 hwf hrw hcw hne hcn hF hst hexp
  have ed : fs'.read (smFile file) = g1.read (smFile file) := by
    have := hreads cs!"sm" (by decide); simpa [smFile] using this
  have er : fs'.read (rowsFile file) = g1.read (rowsFile file) := by
    have := hreads cs!"rows" (by decide); simpa [rowsFile] using this
  have ec : fs'.read (colsFile file) = g1.read (colsFile file) := by
    have := hreads cs!"cols" (by decide); simpa [colsFile] using this
  refine ⟨s', ?_, b2, b3, b6, b7, b8, fun i j hi hj => (b9 i j hi hj).2⟩
  rw [← build_congr (fs := fs') (fs' := g1) ed (by intro f hf; injection hf with hf; subst hf; exact er)
    (by intro f hf; injection hf with hf; subst hf; exact ec)] at b1
  refine InputSpace.sparse (rows := some (rowsFile file)) (Or.inl ⟨?_, rfl⟩) ?_ ?_
  · exact exists_of_read (by simp) (er.trans y1)
  · exact exists_of_read (by simp) (ec.trans (y2 hcn))
  · have : dataFile file cs!"sm" false = smFile file := by simp [dataFile, smFile]
    rw [this]
    exact b1

/-- No file disappears. -/
def FilesKept (fs fs' : Fs) : Prop := fs'.cwd = fs.cwd ∧ ∀ x, fs.files.get? x ≠ none → fs'.files.get? x ≠ none

theorem FilesKept.refl (fs : Fs) : FilesKept fs fs := ⟨rfl, fun _ h => h⟩

theorem FilesKept.trans {a b c : Fs} (h1 : FilesKept a b) (h2 : FilesKept b c) : FilesKept a c :=
  ⟨h2.1.trans h1.1, fun x h => h2.2 x (h1.2 x h)⟩

theorem write_kept {fs fs' : Fs} {p c : Str} (h : fs.write p c = .ok fs') : FilesKept fs fs' := by
  unfold Fs.write at h
  split at h
  · cases h
  · obtain rfl := ok_inj h
    refine ⟨rfl, fun x hx => ?_⟩
    show (fs.files.set _ c).get? x ≠ none
    rw [Dict.get?_set]
    split
    · simp
    · exact hx

theorem createParent_kept {fs fs' : Fs} {p : Str} (h : fs.createParentDirectories p = .ok fs') : FilesKept fs fs' := by
  have g := Fs.createParent_files h
  exact ⟨g.2, fun x hx => by rw [g.1]; exact hx⟩

theorem export_kept {io : NumIO} {fs fs' : Fs} {s : Space Str} {store : Csr ℝ} {pre : Str} {format : Option Str}
    (h : Space.export io fs s store pre format = .ok fs') : FilesKept fs fs' := by
  obtain ⟨fs1, fs2, h1, h2, h3⟩ := export_ok h
  refine (createParent_kept h1).trans (FilesKept.trans (b := fs2) ?_ ?_)
  · unfold exportMatrix at h2
    split at h2
    · obtain rfl := ok_inj h2; exact .refl _
    · split at h2
      · obtain ⟨txt, _, h2⟩ := Fs.writeText_ok.1 h2
        exact write_kept h2
      · split at h2
        · split at h2
          · cases h2
          · obtain ⟨txt, _, h2⟩ := Fs.writeText_ok.1 h2
            exact write_kept h2
        · cases h2
  · unfold exportRowColumn at h3
    obtain ⟨fs3, h4, h5⟩ := bind_eq_ok.1 h3
    refine FilesKept.trans (b := fs3) ?_ (write_kept h5)
    unfold exportCols at h4
    split at h4
    · exact write_kept h4
    · obtain rfl := ok_inj h4; exact .refl _

theorem runJobs_kept {L : Lib} {fmt : Option Str} : ∀ (js : List (Str × Space Str)) {fs fs' : Fs},
    runJobs L fmt js fs = .ok fs' → FilesKept fs fs' := by
  intro js
  induction js with
  | nil => intro fs fs' h; obtain rfl := ok_inj h; exact .refl _
  | cons j js ih =>
    intro fs fs' h
    obtain ⟨fs1, h1, h2⟩ := bind_eq_ok.1 h
    refine FilesKept.trans ?_ (ih h2)
    obtain ⟨fs2, h3, h4⟩ := bind_eq_ok.1 h1
    refine FilesKept.trans (b := fs2) ?_ ?_
    · obtain ⟨a, _, b⟩ := save_ok h3
      refine ⟨a, fun x hx => ?_⟩
      rw [b]
      split
      · simp
      · exact hx
    · unfold exportOpt at h4
      split at h4
      · obtain rfl := ok_inj h4; exact .refl _
      · exact export_kept h4

/-- **C150** is false when a `.cols` file of an earlier run lies next to the export of a space without column labels (an SVD
space, for instance): the run neither removes nor overwrites it, and the scripts take it for part of the space: they never
read the exported labels back. -/
theorem C150_stale_labels_refuted {L : Lib} {fs fs' : Fs} {pre base fmt outDir txt : Str} {outFormat : Option Str}
    {ws ss rs ns : List (Option Str)} {gz : Bool} (hb : IsBase pre base)
    (hdoc : ∀ c, choices ws ss rs ns c → c.Documented)
    (h : buildSpaces L fs pre fmt outDir outFormat ws ss rs ns gz = .ok fs') {c : Choice} (hc : choices ws ss rs ns c)
    (hstale : fs.read (coreFile outDir base c ++ cs!".cols") = .ok txt) :
    ∃ raw res, InputSpace L fs pre gz fmt raw ∧ c.Result L.env raw res ∧
      (res.id2col = [] → ∀ s', InputSpace L fs' (coreFile outDir base c) false cs!"dm" s' → s'.id2col ≠ res.id2col) := by
  obtain ⟨raw, k1, k2⟩ := C67_every_combination hb hdoc h
  obtain ⟨res, m1, _⟩ := k2 c hc
  refine ⟨raw, res, k1, m1, ?_⟩
  obtain ⟨_, _, js, _, hrun⟩ := buildSpaces_jobs h
  have hkept := runJobs_kept js hrun
  have hex : fs'.exists_ (coreFile outDir base c ++ cs!".cols") = true := by
    have hne : coreFile outDir base c ++ cs!".cols" ≠ [] := by simp
    unfold Fs.read at hstale
    rw [if_neg hne] at hstale
    have h0 : fs.files.get? (fs.resolve (coreFile outDir base c ++ cs!".cols")) ≠ none := by
      intro hn; rw [hn] at hstale; cases hstale
    have h1 := hkept.2 _ h0
    rw [← Fs.resolve_cwd hkept.1] at h1
    obtain ⟨t, ht⟩ := Option.ne_none_iff_exists'.1 h1
    unfold Fs.exists_
    simp [Dict.contains_iff.2 ⟨t, ht⟩]
  intro hcol s' hs
  generalize coreFile outDir base c = file at *
  generalize hf : cs!"dm" = f at hs
  cases hs with
  | pickle => exact absurd hf (by decide)
  | sparse => exact absurd hf (by decide)
  | dense h1 h2 h3 =>
    rcases h2 with ⟨_, rfl⟩ | ⟨h2, _⟩
    · obtain ⟨_, _, _, _, _, h6⟩ := C63_built_space h3
      obtain ⟨_, _, _, _, h7, _⟩ := h6 _ rfl
      rw [hcol]
      exact h7
    · rw [hex] at h2; cases h2

end
end Dissect
