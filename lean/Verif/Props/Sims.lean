import Verif.Lemmas.Sims

/-! # C71: `compute_similarities.py` -/

namespace Dissect
noncomputable section

theorem twoColumns_ok {a b : Str} {i j : ℕ} (ha : pyInt a = .ok ((i + 1 : ℕ) : ℤ)) (hb : pyInt b = .ok ((j + 1 : ℕ) : ℤ)) :
    twoColumns [a, b] = .ok ((i : ℤ), (j : ℤ)) := by
  simp [twoColumns, ha, hb]

theorem simsName_noslash {base d m : Str} {sim : Sim} (hb : '/' ∉ base) (hd : '/' ∉ d) (hm : (m, sim) ∈ measureTable) :
    '/' ∉ cs!"SIMS." ++ base ++ ['.'] ++ d ++ ['.'] ++ m := by
  have := (measure_chars hm).1
  simp [hb, hd, this]

theorem simsFile_resolve (fs : Fs) {outDir base d m : Str} {sim : Sim} (hb : '/' ∉ base) (hd : '/' ∉ d)
    (hm : (m, sim) ∈ measureTable) :
    fs.resolve (simsFile outDir base d m) =
      fs.resolve (outDir ++ ['/']) ++ [cs!"SIMS." ++ base ++ ['.'] ++ d ++ ['.'] ++ m] := by
  rw [simsFile_eq]
  exact resolve_in fs outDir (simsName_noslash hb hd hm) (by simp) (by simp)

theorem simsFile_inj (fs : Fs) {outDir base d d' m m' : Str} {sim sim' : Sim} (hb : '/' ∉ base) (hd : '/' ∉ d)
    (hd' : '/' ∉ d') (hm : (m, sim) ∈ measureTable) (hm' : (m', sim') ∈ measureTable)
    (h : fs.resolve (simsFile outDir base d m) = fs.resolve (simsFile outDir base d' m')) : d = d' ∧ m = m' := by
  rw [simsFile_resolve fs hb hd hm, simsFile_resolve fs hb hd' hm'] at h
  have h := (List.append_inj' h rfl).2
  injection h with h
  obtain ⟨h1, h2⟩ := dot_split (measure_chars hm).2.1 (measure_chars hm').2.1 h
  exact ⟨List.append_cancel_left h1, h2⟩

/-- The loop over the measures. -/
theorem measures_loop {L : Lib} {fs fs' : Fs} {inFile base outDir d : Str} {i j k : ℕ} {s : Space Str}
    {s2 : Option (Space Str)} {measures : List Str} (hb : IsBase inFile base) (hn : IsFileName base) (hd : '/' ∉ d)
    (h : forFs (fun _ m fs => simMeasure L inFile (i : ℤ) (j : ℤ) outDir (cs!"SIMS." ++ base ++ ['.'] ++ d) s s2 m fs) k
      measures fs = .ok fs') :
    fs'.cwd = fs.cwd ∧
    (∀ x, (∀ m ∈ measures, ∀ sim, (m, sim) ∈ measureTable → x ≠ fs.resolve (simsFile outDir base d m)) →
      fs'.files.get? x = fs.files.get? x) ∧
    ∀ m ∈ measures, ∀ sim, (m, sim) ∈ measureTable → ∃ content out, fs.read inFile = .ok content ∧
      SimFile L s s2 sim i j content out ∧ fs'.read (simsFile outDir base d m) = .ok out := by
  have hin : ∀ (g : Fs) m sim, (m, sim) ∈ measureTable → g.resolve inFile ≠ g.resolve (simsFile outDir base d m) := by
    intro g m sim hm
    rw [simsFile_eq]
    refine resolve_longer g hb hn (simsName_noslash hb.1 hd hm) ?_ (by simp)
    simp; omega
  have key := @forFs_inv _ (fun _ m fs => simMeasure L inFile (i : ℤ) (j : ℤ) outDir (cs!"SIMS." ++ base ++ ['.'] ++ d) s s2 m fs)
    (fun g => g.cwd = fs.cwd ∧
      ∀ x, (∀ m ∈ measures, ∀ sim, (m, sim) ∈ measureTable → x ≠ fs.resolve (simsFile outDir base d m)) →
        g.files.get? x = fs.files.get? x)
    (fun m g => ∀ sim, (m, sim) ∈ measureTable → ∃ content out, fs.read inFile = .ok content ∧
      SimFile L s s2 sim i j content out ∧ g.read (simsFile outDir base d m) = .ok out)
    (fun m => m ∈ measures) measures k fs fs' (fun x hx => hx)
  have hfin := fun hstep => key hstep ⟨rfl, fun _ _ => rfl⟩ h
  suffices hstep : _ by
    obtain ⟨⟨a, b⟩, c, _⟩ := hfin hstep
    exact ⟨a, b, c⟩
  · rintro _ m g g' hm ⟨hc, hf⟩ hs
    obtain ⟨h1, h2⟩ := simMeasure_ok hb hn hd hs
    have hrd : g.read inFile = fs.read inFile :=
      read_congr hc (hf _ (fun m _ sim hm => hin fs m sim hm))
    by_cases hk : ∃ sim, (m, sim) ∈ measureTable
    · obtain ⟨sim, hk⟩ := hk
      obtain ⟨content, out, r1, r2, w⟩ := h1 sim hk
      refine ⟨⟨w.1.trans hc, fun x hx => ?_⟩, ?_, ?_⟩
      · rw [w.2, if_neg, hf x hx]
        rw [Fs.resolve_cwd hc]
        exact hx m hm sim hk
      · intro sim' hk'
        have : sim' = sim := by
          have e1 := simOf_eq.2 hk
          rw [simOf_eq.2 hk'] at e1
          injection e1
        subst this
        exact ⟨content, out, by rw [← hrd]; exact r1, r2, w.same rfl (by simp [simsFile])⟩
      · intro y hy hD sim' hk'
        obtain ⟨content', out', q1, q2, q3⟩ := hD sim' hk'
        by_cases hr : g.resolve (simsFile outDir base d y) = g.resolve (simsFile outDir base d m)
        · obtain ⟨_, rfl⟩ := simsFile_inj g hb.1 hd hd hk' hk hr
          have : sim' = sim := by
            have e1 := simOf_eq.2 hk
            rw [simOf_eq.2 hk'] at e1
            injection e1
          subst this
          exact ⟨content, out, by rw [← hrd]; exact r1, r2, w.same rfl (by simp [simsFile])⟩
        · exact ⟨content', out', q1, q2, by rw [w.other hr]; exact q3⟩
    · obtain rfl := h2 (fun sim hs => hk ⟨sim, hs⟩)
      exact ⟨⟨hc, hf⟩, fun sim hs => absurd ⟨sim, hs⟩ hk, fun y _ h => h⟩

theorem computeSim_loop {L : Lib} {fs : Fs} {inFile base outDir d a b f : Str} {gs : List Str} {i j : ℕ} {s : Space Str}
    {s2 : Option (Space Str)} {measures : List Str} (hb : IsBase inFile base)
    (ha : pyInt a = .ok ((i + 1 : ℕ) : ℤ)) (hb' : pyInt b = .ok ((j + 1 : ℕ) : ℤ)) (hnm : SpacesName (f :: gs) d)
    (hs : SpacesFrom L fs (f :: gs) s s2) :
    computeSim L inFile [a, b] outDir measures (f :: gs) fs =
      forFs (fun _ m fs => simMeasure L inFile (i : ℤ) (j : ℤ) outDir (cs!"SIMS." ++ base ++ ['.'] ++ d) s s2 m fs) 0
        measures fs := by
  have h1 : loadSpace L fs f = .ok s := by
    cases hs with
    | two h _ => exact loadSpace_ok.2 h
    | one h _ => exact loadSpace_ok.2 h
  have h2 := (loadSecond_spaces h1).2 hs
  have h3 := (spacesDescr_eq hnm).1
  have hj : joinStr ['.'] [cs!"SIMS", base, d] = cs!"SIMS." ++ base ++ ['.'] ++ d := by simp [joinStr]
  simp only [computeSim, twoColumns_ok ha hb', ok_bind, h1, h2, h3, lastComp_of_base hb, hj]

/-- **C71** For every known measure the file `SIMS.<input>.<spaces>.<measure>` in the output directory has one line for each
non-blank line of the input, in order: the line followed by the similarity of the words in the two requested columns. -/
theorem C71_scores {L : Lib} {fs fs' : Fs} {inFile base outDir d a b : Str} {files : List Str} {i j : ℕ} {s : Space Str}
    {s2 : Option (Space Str)} {measures : List Str} (hb : IsBase inFile base) (hn : IsFileName base)
    (ha : pyInt a = .ok ((i + 1 : ℕ) : ℤ)) (hb' : pyInt b = .ok ((j + 1 : ℕ) : ℤ)) (hnm : SpacesName files d)
    (hs : SpacesFrom L fs files s s2) (h : computeSim L inFile [a, b] outDir measures files fs = .ok fs')
    {m : Str} {sim : Sim} (hm : m ∈ measures) (hk : (m, sim) ∈ measureTable) :
    ∃ content out, fs.read inFile = .ok content ∧ SimFile L s s2 sim i j content out ∧
      fs'.read (simsFile outDir base d m) = .ok out := by
  have hfiles : ∃ f gs, files = f :: gs := by cases hs <;> exact ⟨_, _, rfl⟩
  obtain ⟨f, gs, rfl⟩ := hfiles
  rw [computeSim_loop hb ha hb' hnm hs] at h
  exact (measures_loop hb hn (spacesDescr_eq hnm).2 h).2.2 m hm sim hk

/-- **C71** No other file is touched; in particular measures that are not known are skipped. -/
theorem C71_other_files {L : Lib} {fs fs' : Fs} {inFile base outDir d a b : Str} {files : List Str} {i j : ℕ} {s : Space Str}
    {s2 : Option (Space Str)} {measures : List Str} (hb : IsBase inFile base) (hn : IsFileName base)
    (ha : pyInt a = .ok ((i + 1 : ℕ) : ℤ)) (hb' : pyInt b = .ok ((j + 1 : ℕ) : ℤ)) (hnm : SpacesName files d)
    (hs : SpacesFrom L fs files s s2) (h : computeSim L inFile [a, b] outDir measures files fs = .ok fs')
    {p : Str} (hp : ∀ m ∈ measures, ∀ sim, (m, sim) ∈ measureTable → fs.resolve p ≠ fs.resolve (simsFile outDir base d m)) :
    fs'.read p = fs.read p := by
  have hfiles : ∃ f gs, files = f :: gs := by cases hs <;> exact ⟨_, _, rfl⟩
  obtain ⟨f, gs, rfl⟩ := hfiles
  rw [computeSim_loop hb ha hb' hnm hs] at h
  obtain ⟨h1, h2, _⟩ := measures_loop hb hn (spacesDescr_eq hnm).2 h
  exact read_congr h1 (h2 _ hp)

/-- **C71** If no measure is known, nothing at all happens. -/
theorem C71_unknown_measures {L : Lib} {fs : Fs} {inFile base outDir d a b : Str} {files : List Str} {i j : ℕ} {s : Space Str}
    {s2 : Option (Space Str)} {measures : List Str} (hb : IsBase inFile base)
    (ha : pyInt a = .ok ((i + 1 : ℕ) : ℤ)) (hb' : pyInt b = .ok ((j + 1 : ℕ) : ℤ)) (hnm : SpacesName files d)
    (hs : SpacesFrom L fs files s s2) (hm : ∀ m ∈ measures, ∀ sim, (m, sim) ∉ measureTable) :
    computeSim L inFile [a, b] outDir measures files fs = .ok fs := by
  have hfiles : ∃ f gs, files = f :: gs := by cases hs <;> exact ⟨_, _, rfl⟩
  obtain ⟨f, gs, rfl⟩ := hfiles
  rw [computeSim_loop hb ha hb' hnm hs]
  generalize 0 = k
  clear hs hnm
  induction measures generalizing k with
  | nil => rfl
  | cons m ms ih =>
    simp only [forFs, simMeasure, simOf_none.2 (hm m (by simp)), ok_bind]
    exact ih (fun m' hm' => hm m' (by simp [hm'])) _

/-! ### Success -/

theorem simMeasure_succeeds {L : Lib} {fs : Fs} {inFile base outDir d m content out : Str} {i j : ℕ} {s : Space Str}
    {s2 : Option (Space Str)} {sim : Sim} (hb : IsBase inFile base) (hn : IsFileName base) (hd : '/' ∉ d)
    (hk : (m, sim) ∈ measureTable) (hr : fs.read inFile = .ok content) (hf : SimFile L s s2 sim i j content out)
    (ho : OutDir fs (fs.resolve (outDir ++ ['/']))) (hfree : fs.resolve (simsFile outDir base d m) ∉ fs.dirs) :
    ∃ fs', simMeasure L inFile (i : ℤ) (j : ℤ) outDir (cs!"SIMS." ++ base ++ ['.'] ++ d) s s2 m fs = .ok fs' ∧
      OutDir fs' (fs.resolve (outDir ++ ['/'])) ∧ fs'.cwd = fs.cwd ∧
      ∀ x ∈ fs'.dirs, x ∈ fs.dirs ∨ x <+: fs.resolve (outDir ++ ['/']) := by
  have hns := simsName_noslash hb.1 hd hk
  have hq := simsFile_eq outDir base d m
  have hres := simsFile_resolve fs (outDir := outDir) hb.1 hd hk
  generalize hnm : cs!"SIMS." ++ base ++ ['.'] ++ d ++ ['.'] ++ m = nm at hns hq hres
  have hne : nm ≠ [] := by rw [← hnm]; simp
  have hnd : nm ≠ ['.'] := by rw [← hnm]; simp
  have hlen : base.length < nm.length := by rw [← hnm]; simp; omega
  have hout : outDir ++ ['/'] ++ (cs!"SIMS." ++ base ++ ['.'] ++ d) ++ ['.'] ++ m = outDir ++ '/' :: nm := by
    rw [← hnm]; simp
  rw [hq] at hfree hres
  obtain ⟨fs1, g1, g2, g3, g4, g5, g6⟩ := ho.createParent hns hne hnd
  have r1 : ∀ p, fs1.resolve p = fs.resolve p := Fs.resolve_cwd g3
  have hin : fs.resolve inFile ≠ fs.resolve (outDir ++ '/' :: nm) := resolve_longer fs hb hn hns hlen hnd
  have hdir : ∀ f : Fs, (∀ x ∈ f.dirs, x ∈ fs.dirs ∨ x <+: fs.resolve (outDir ++ ['/'])) →
      fs.resolve (outDir ++ '/' :: nm) ∉ f.dirs := by
    intro f hx hm
    rcases hx _ hm with h | h
    · exact hfree h
    · have := h.length_le
      rw [hres] at this
      simp at this
  obtain ⟨fs2, w1, w2⟩ := OutDir.write (fs := fs1) (o := outDir) (nm := nm) (c := []) (by rw [r1]; exact g2) hns hne hnd
    (by rw [r1]; exact hdir fs1 g6) (by rw [r1]; exact g5)
  obtain ⟨a1, a2, _, a4⟩ := Fs.write_ok w1
  have r2 : ∀ p, fs2.resolve p = fs.resolve p := fun p => (Fs.resolve_cwd a1 p).trans (r1 p)
  rw [r1] at w2
  obtain ⟨ls, hls, rfl⟩ := hf
  obtain ⟨fs3, w3, w4⟩ := OutDir.write (fs := fs2) (o := outDir) (nm := nm) (c := ls.flatten) (by rw [r2]; exact w2) hns hne hnd
    (by rw [r2, a2]; exact hdir fs1 g6) (by rw [r2, a2]; exact g5)
  obtain ⟨b1, b2, _, _⟩ := Fs.write_ok w3
  rw [r2] at w4
  have hrd1 : fs1.read inFile = .ok content := by rw [← hr]; exact read_congr g3 (by rw [g4])
  have hrd2 : fs2.read inFile = .ok content := by
    rw [← hrd1]
    refine read_congr a1 ?_
    rw [a4, if_neg (by rw [r1, r1]; exact hin)]
  have htx : simText L (i : ℤ) (j : ℤ) s s2 sim (strippedLines content) = .ok ls.flatten := simText_ok.2 ⟨ls, hls, rfl⟩
  refine ⟨fs3, ?_, w4, (b1.trans a1).trans g3, by rw [b2, a2]; exact g6⟩
  simp only [simMeasure, simOf_eq.2 hk, hout, g1, ok_bind, hrd1, w1, hrd2, htx, w3]

/-- **C71** The run succeeds when every non-blank line has both columns and the similarity of its words is defined, and the
output directory exists or can be created. -/
theorem C71_succeeds {L : Lib} {fs : Fs} {inFile base outDir d a b content : Str} {files : List Str} {i j : ℕ} {s : Space Str}
    {s2 : Option (Space Str)} {measures : List Str} (hb : IsBase inFile base) (hn : IsFileName base)
    (ha : pyInt a = .ok ((i + 1 : ℕ) : ℤ)) (hb' : pyInt b = .ok ((j + 1 : ℕ) : ℤ)) (hnm : SpacesName files d)
    (hs : SpacesFrom L fs files s s2) (hr : fs.read inFile = .ok content)
    (hok : ∀ m ∈ measures, ∀ sim, (m, sim) ∈ measureTable → ∃ out, SimFile L s s2 sim i j content out)
    (ho : OutDir fs (fs.resolve (outDir ++ ['/'])))
    (hfree : ∀ m ∈ measures, ∀ sim, (m, sim) ∈ measureTable → fs.resolve (simsFile outDir base d m) ∉ fs.dirs) :
    ∃ fs', computeSim L inFile [a, b] outDir measures files fs = .ok fs' := by
  have hfiles : ∃ f gs, files = f :: gs := by cases hs <;> exact ⟨_, _, rfl⟩
  obtain ⟨f, gs, rfl⟩ := hfiles
  rw [computeSim_loop hb ha hb' hnm hs]
  have hd := (spacesDescr_eq hnm).2
  generalize 0 = k
  clear hs hnm
  generalize hdir : fs.resolve (outDir ++ ['/']) = dir at ho
  induction measures generalizing k fs with
  | nil => exact ⟨fs, rfl⟩
  | cons m ms ih =>
    simp only [forFs]
    by_cases hk : ∃ sim, (m, sim) ∈ measureTable
    · obtain ⟨sim, hk⟩ := hk
      obtain ⟨out, hf⟩ := hok m (by simp) sim hk
      subst hdir
      obtain ⟨fs1, h1, h2, h3, h4⟩ := simMeasure_succeeds hb hn hd hk hr hf ho (hfree m (by simp) sim hk)
      rw [h1, ok_bind]
      have hw := (simMeasure_ok hb hn hd h1).1 sim hk
      obtain ⟨_, _, _, _, w⟩ := hw
      refine ih ?_ (fun m' hm' => hok m' (by simp [hm'])) ?_ (k + 1) (Fs.resolve_cwd h3 _) h2
      · rw [← hr]
        refine w.other ?_
        rw [simsFile_eq]
        refine resolve_longer fs hb hn (simsName_noslash hb.1 hd hk) ?_ (by simp)
        simp; omega
      · intro m' hm' sim' hk' hx
        rw [Fs.resolve_cwd h3] at hx
        rcases h4 _ hx with h | h
        · exact hfree m' (by simp [hm']) sim' hk' h
        · have := h.length_le
          rw [simsFile_resolve fs hb.1 hd hk'] at this
          simp at this
    · simp only [simMeasure, simOf_none.2 (fun sim hs => hk ⟨sim, hs⟩), ok_bind]
      exact ih hr (fun m' hm' => hok m' (by simp [hm'])) (fun m' hm' => hfree m' (by simp [hm'])) _ hdir ho

/-! ### All spaces of a directory -/

theorem pkl_not_sims {g : Fs} {outDir inDir base st d m : Str} {sim : Sim} (hb : '/' ∉ base) (hst : '/' ∉ st) (hd : '/' ∉ d)
    (hk : (m, sim) ∈ measureTable) :
    g.resolve (withSlash inDir ++ (st ++ cs!".pkl")) ≠ g.resolve (simsFile outDir base d m) := by
  rw [withSlash_resolve g inDir (by simp [hst]) (by simp) (by intro h; have := congrArg List.length h; simp at this),
    simsFile_resolve g hb hd hk]
  intro h
  have h := (List.append_inj' h rfl).2
  injection h with h
  rw [pkl_eq] at h
  have h2 := (dot_split (show '.' ∉ cs!"pkl" by decide) (measure_chars hk).2.1 h).2
  subst h2
  simp [measureTable] at hk

theorem holds_congr {L : Lib} {fs g : Fs} {f : Str} (h : g.read f = fs.read f) : loadSpace L g f = loadSpace L fs f := by
  unfold loadSpace Fs.load
  rw [h]

/-- **C71** With `--in_dir`, the output for every pickled space of the directory is written, whatever the order in which
the directory is listed. -/
theorem C71_batch {L : Lib} {fs fs' : Fs} {inFile base outDir inDir a b : Str} {i j : ℕ} {measures : List Str}
    (hb : IsBase inFile base) (hn : IsFileName base) (ha : pyInt a = .ok ((i + 1 : ℕ) : ℤ))
    (hb' : pyInt b = .ok ((j + 1 : ℕ) : ℤ)) (hnames : fs.NamesOk) (hord : ∀ l, (L.dirOrder l).Perm l)
    (h : computeSimBatch L inFile [a, b] outDir measures inDir fs = .ok fs')
    {st : Str} {s : Space Str} (hst : '/' ∉ st) (hs : HoldsSpace L fs (inDir ++ '/' :: (st ++ cs!".pkl")) s)
    {m : Str} {sim : Sim} (hm : m ∈ measures) (hk : (m, sim) ∈ measureTable) :
    ∃ content out, fs.read inFile = .ok content ∧ SimFile L s none sim i j content out ∧
      fs'.read (simsFile outDir base st m) = .ok out := by
  unfold computeSimBatch at h
  split at h
  swap
  · cases h
  rename_i hex
  have hdne : inDir ≠ [] := by
    rintro rfl
    simp [Fs.exists_] at hex
  rw [bind_eq_ok] at h
  obtain ⟨names, hl, h⟩ := h
  have hin : ∀ (g : Fs) d m sim, '/' ∉ d → (m, sim) ∈ measureTable →
      g.resolve inFile ≠ g.resolve (simsFile outDir base d m) := by
    intro g d m sim hd hm
    rw [simsFile_eq]
    refine resolve_longer g hb hn (simsName_noslash hb.1 hd hm) ?_ (by simp)
    simp; omega
  have hnm : ∀ x ∈ names, '/' ∉ x := by
    intro x hx
    unfold Fs.listdir at hl
    split at hl
    · obtain rfl := ok_inj hl
      have := mem_children.1 ((hord _).mem_iff.1 hx)
      exact hnames _ this x (by simp)
    · cases hl
  have hmem : st ++ cs!".pkl" ∈ names := by
    unfold Fs.listdir at hl
    split at hl
    · obtain rfl := ok_inj hl
      rw [(hord _).mem_iff, mem_children]
      obtain ⟨txt, hr, _⟩ := hs
      have hkey : fs.files.get? (fs.resolve (inDir ++ '/' :: (st ++ cs!".pkl"))) = some txt := by
        unfold Fs.read at hr
        split at hr
        · cases hr
        · split at hr
          · rename_i hg
            obtain rfl := ok_inj hr
            exact hg
          · cases hr
      rw [← withSlash_slash fs inDir _ hdne,
        withSlash_resolve fs inDir (by simp [hst]) (by simp) (by intro h; have := congrArg List.length h; simp at this)] at hkey
      exact List.mem_append_right _ (Dict.mem_keys_iff.2 ⟨_, hkey⟩)
    · cases hl
  have key := @forFs_inv _ (fun _ name fs => computeSim L inFile [a, b] outDir measures [withSlash inDir ++ name] fs)
    (fun g => g.cwd = fs.cwd ∧
      ∀ x, (∀ d m sim, '/' ∉ d → (m, sim) ∈ measureTable → x ≠ fs.resolve (simsFile outDir base d m)) →
        g.files.get? x = fs.files.get? x)
    (fun name g => ∀ t s, name = t ++ cs!".pkl" → HoldsSpace L fs (withSlash inDir ++ name) s → ∀ m ∈ measures, ∀ sim,
      (m, sim) ∈ measureTable → ∃ content out, fs.read inFile = .ok content ∧
      SimFile L s none sim i j content out ∧ g.read (simsFile outDir base t m) = .ok out)
    (fun name => name ∈ names ∧ isPkl name = true) (names.filter isPkl) 0 fs fs'
    (fun x hx => ⟨(List.mem_filter.1 hx).1, (List.mem_filter.1 hx).2⟩)
  have hfin := fun hstep => key hstep ⟨rfl, fun _ _ => rfl⟩ h
  suffices hstep : _ by
    obtain ⟨_, c, _⟩ := hfin hstep
    refine c (st ++ cs!".pkl") (List.mem_filter.2 ⟨hmem, isPkl_iff.2 ⟨st, rfl⟩⟩) st s rfl ?_ m hm sim hk
    obtain ⟨txt, hr, hu⟩ := hs
    refine ⟨txt, ?_, hu⟩
    rw [← hr]
    unfold Fs.read
    rw [withSlash_slash fs inDir _ hdne, if_neg (by simp), if_neg (by simp)]
  rintro _ name g g' ⟨hn1, hn2⟩ ⟨hc, hf⟩ hrun
  obtain ⟨t, rfl⟩ := isPkl_iff.1 hn2
  have ht : '/' ∉ t := by
    have := hnm _ hn1
    intro hm; exact this (by simp [hm])
  have hrd : g.read inFile = fs.read inFile :=
    read_congr hc (hf _ (fun d m sim hd hm => hin fs d m sim hd hm))
  have hpk : ∀ u, '/' ∉ u → loadSpace L g (withSlash inDir ++ (u ++ cs!".pkl")) = loadSpace L fs (withSlash inDir ++ (u ++ cs!".pkl")) := by
    intro u hu
    exact holds_congr (read_congr hc (hf _ (fun d m sim hd hm => pkl_not_sims hb.1 hu hd hm)))
  have hsn : SpacesName [withSlash inDir ++ (t ++ cs!".pkl")] t := .one (by simp) (withSlash_stem inDir ht)
  cases hld : loadSpace L g (withSlash inDir ++ (t ++ cs!".pkl")) with
  | error e =>
    simp only [computeSim, twoColumns_ok ha hb', ok_bind, hld] at hrun
    have hno : ∀ s, ¬ HoldsSpace L fs (withSlash inDir ++ (t ++ cs!".pkl")) s := by
      intro s hh
      rw [hpk t ht, loadSpace_ok.2 hh] at hld
      cases hld
    have : g' = g := by
      cases e <;> first | (cases hrun; done) | exact (ok_inj hrun).symm
    subst this
    refine ⟨⟨hc, hf⟩, ?_, fun y _ h => h⟩
    intro t' s' he hh
    exact absurd hh (hno s')
  | ok s0 =>
    have hsp : SpacesFrom L g [withSlash inDir ++ (t ++ cs!".pkl")] s0 none := .one (loadSpace_ok.1 hld) (by simp)
    rw [computeSim_loop hb ha hb' hsn hsp] at hrun
    obtain ⟨r1, r2, r3⟩ := measures_loop hb hn ht hrun
    have hD : ∀ t' s', t ++ cs!".pkl" = t' ++ cs!".pkl" → HoldsSpace L fs (withSlash inDir ++ (t ++ cs!".pkl")) s' →
        ∀ m ∈ measures, ∀ sim, (m, sim) ∈ measureTable → ∃ content out, fs.read inFile = .ok content ∧
          SimFile L s' none sim i j content out ∧ g'.read (simsFile outDir base t' m) = .ok out := by
      intro t' s' he hh m hm sim hk
      obtain rfl := List.append_cancel_right he
      have : s' = s0 := by
        have := loadSpace_ok.2 hh
        rw [← hpk t ht, hld] at this
        exact (ok_inj this).symm
      subst this
      obtain ⟨content, out, e1, e2, e3⟩ := r3 m hm sim hk
      exact ⟨content, out, by rw [← hrd]; exact e1, e2, e3⟩
    refine ⟨⟨r1.trans hc, fun x hx => ?_⟩, hD, ?_⟩
    · rw [r2 x (fun m _ sim hm => by rw [Fs.resolve_cwd hc]; exact hx t m sim ht hm), hf x hx]
    · rintro y ⟨hy1, hy2⟩ hDy t' s' rfl hh m hm sim hk
      by_cases htt : t' = t
      · subst htt
        exact hD t' s' rfl hh m hm sim hk
      · have ht' : '/' ∉ t' := by
          have := hnm _ hy1
          intro hm; exact this (by simp [hm])
        obtain ⟨content, out, e1, e2, e3⟩ := hDy t' s' rfl hh m hm sim hk
        refine ⟨content, out, e1, e2, ?_⟩
        rw [← e3]
        refine read_congr r1 (r2 _ ?_)
        intro m' hm' sim' hk' he
        exact htt (simsFile_inj g hb.1 ht' ht hk hk' he).1

end
end Dissect
