import Verif.Props.Sims

/-! # C82: `compute_neighbours.py`; C83: `evaluate_similarities.py`; C88: column numbers -/

namespace Dissect
noncomputable section

theorem neighboursText_ok {L : Lib} {s : Space Str} {n : ℤ} {sim : Sim} {s2 : Option (Space Str)} : ∀ {ws : List Str} {txt : Str},
    neighboursText L s n sim s2 ws = .ok txt ↔
      ∃ bs, List.Forall₂ (NeighbourBlock L s s2 sim n) ws bs ∧ txt = bs.flatten := by
  intro ws
  induction ws with
  | nil => intro txt; simp [neighboursText, eq_comm]
  | cons w ws ih =>
    intro txt
    simp only [neighboursText, bind_eq_ok, pure_eq_ok]
    constructor
    · rintro ⟨r, h1, rest, h2, h⟩
      obtain rfl := ok_inj h
      obtain ⟨bs, hb, rfl⟩ := ih.1 h2
      exact ⟨_ :: bs, .cons ⟨r, h1, rfl⟩ hb, by simp [neighbourText]⟩
    · rintro ⟨bs, hb, rfl⟩
      cases hb with
      | cons h1 h2 =>
        obtain ⟨r, h1, rfl⟩ := h1
        exact ⟨r, h1, _, ih.2 ⟨_, h2, rfl⟩, by simp [neighbourText]⟩

theorem neighName_noslash {base d m : Str} {sim : Sim} (hb : '/' ∉ base) (hd : '/' ∉ d) (hm : (m, sim) ∈ measureTable) :
    '/' ∉ cs!"NEIGHBOURS." ++ base ++ ['.'] ++ d ++ ['.'] ++ m := by
  have := (measure_chars hm).1
  simp [hb, hd, this]

/-- `compute_neighbours` up to the file names. -/
theorem computeNeighbours_eq {L : Lib} {fs : Fs} {inFile base outDir d m : Str} {n : ℤ} {files : List Str} {s : Space Str}
    {s2 : Option (Space Str)} {sim : Sim} (hb : IsBase inFile base) (hnm : SpacesName files d)
    (hs : SpacesFrom L fs files s s2) (hk : (m, sim) ∈ measureTable) :
    computeNeighbours L inFile n outDir m files fs = (do
      let fs1 ← fs.createParentDirectories (neighboursFile outDir base d m)
      let content ← fs1.read inFile
      let fs2 ← fs1.write (neighboursFile outDir base d m) []
      let txt ← neighboursText L s n sim s2 (textLines content)
      fs2.write (neighboursFile outDir base d m) txt) := by
  have hfiles : ∃ f gs, files = f :: gs := by cases hs <;> exact ⟨_, _, rfl⟩
  obtain ⟨f, gs, rfl⟩ := hfiles
  have h1 : loadSpace L fs f = .ok s := by
    cases hs with
    | two h _ => exact loadSpace_ok.2 h
    | one h _ => exact loadSpace_ok.2 h
  have h2 := (loadSecond_spaces h1).2 hs
  have h3 := (spacesDescr_eq hnm).1
  have hj : outDir ++ ['/'] ++ joinStr ['.'] [cs!"NEIGHBOURS", base, d] ++ ['.'] ++ m = neighboursFile outDir base d m := by
    simp [joinStr, neighboursFile]
  simp only [computeNeighbours, simOf_eq.2 hk, h1, h2, h3, lastComp_of_base hb, hj, ok_bind]
  rfl

/-- **C82** When `compute_neighbours` returns, `NEIGHBOURS.<input>.<spaces>.<measure>` in the output directory has, for every
non-blank line of the input in order, the word and its neighbours. -/
theorem C82_neighbours {L : Lib} {fs fs' : Fs} {inFile base outDir d m : Str} {n : ℤ} {files : List Str} {s : Space Str}
    {s2 : Option (Space Str)} {sim : Sim} (hb : IsBase inFile base) (hnm : SpacesName files d)
    (hs : SpacesFrom L fs files s s2) (hk : (m, sim) ∈ measureTable)
    (h : computeNeighbours L inFile n outDir m files fs = .ok fs') :
    ∃ content blocks, fs.read inFile = .ok content ∧
      List.Forall₂ (NeighbourBlock L s s2 sim n) (textLines content) blocks ∧
      fs'.read (neighboursFile outDir base d m) = .ok blocks.flatten := by
  rw [computeNeighbours_eq hb hnm hs hk] at h
  simp only [bind_eq_ok] at h
  obtain ⟨fs1, h1, content, h2, fs2, h3, txt, h4, h5⟩ := h
  obtain ⟨bs, hbs, rfl⟩ := neighboursText_ok.1 h4
  have g1 := Fs.createParent_files h1
  exact ⟨content, bs, by rw [← h2]; exact (read_congr g1.2 (by rw [g1.1])).symm, hbs, Fs.read_write_same h5⟩

/-- **C82** No other file is touched. -/
theorem C82_other_files {L : Lib} {fs fs' : Fs} {inFile base outDir d m : Str} {n : ℤ} {files : List Str} {s : Space Str}
    {s2 : Option (Space Str)} {sim : Sim} (hb : IsBase inFile base) (hnm : SpacesName files d)
    (hs : SpacesFrom L fs files s s2) (hk : (m, sim) ∈ measureTable)
    (h : computeNeighbours L inFile n outDir m files fs = .ok fs') {p : Str}
    (hp : fs.resolve p ≠ fs.resolve (neighboursFile outDir base d m)) : fs'.read p = fs.read p := by
  rw [computeNeighbours_eq hb hnm hs hk] at h
  simp only [bind_eq_ok] at h
  obtain ⟨fs1, h1, content, h2, fs2, h3, txt, h4, h5⟩ := h
  have g1 := Fs.createParent_files h1
  obtain ⟨a1, _, _, a4⟩ := Fs.write_ok h3
  obtain ⟨b1, _, _, b4⟩ := Fs.write_ok h5
  have r1 := Fs.resolve_cwd g1.2
  have r2 := Fs.resolve_cwd a1
  rw [read_congr b1 (by rw [b4, if_neg (by rw [r2, r2, r1, r1]; exact hp)]),
    read_congr a1 (by rw [a4, if_neg (by rw [r1, r1]; exact hp)]), read_congr g1.2 (by rw [g1.1])]

/-- **C82** The run succeeds when every word has its neighbours computed and the output directory exists or can be created. -/
theorem C82_succeeds {L : Lib} {fs : Fs} {inFile base outDir d m content : Str} {n : ℤ} {files : List Str} {s : Space Str}
    {s2 : Option (Space Str)} {sim : Sim} (hb : IsBase inFile base) (hnm : SpacesName files d)
    (hs : SpacesFrom L fs files s s2) (hk : (m, sim) ∈ measureTable) (hr : fs.read inFile = .ok content)
    (hok : ∀ w ∈ textLines content, ∃ ns, s.getNeighbours w n sim s2 = .ok ns)
    (ho : OutDir fs (fs.resolve (outDir ++ ['/'])))
    (hfree : fs.resolve (neighboursFile outDir base d m) ∉ fs.dirs) :
    ∃ fs', computeNeighbours L inFile n outDir m files fs = .ok fs' := by
  rw [computeNeighbours_eq hb hnm hs hk]
  have hns := neighName_noslash hb.1 (spacesDescr_eq hnm).2 hk
  have hq := neighboursFile_eq outDir base d m
  generalize hnm' : cs!"NEIGHBOURS." ++ base ++ ['.'] ++ d ++ ['.'] ++ m = nm at hns hq
  have hne : nm ≠ [] := by rw [← hnm']; simp
  have hnd : nm ≠ ['.'] := by rw [← hnm']; simp
  rw [hq] at hfree ⊢
  have hres := resolve_in fs outDir hns hne hnd
  obtain ⟨fs1, g1, g2, g3, g4, g5, g6⟩ := ho.createParent hns hne hnd
  have r1 : ∀ p, fs1.resolve p = fs.resolve p := Fs.resolve_cwd g3
  have hdir : fs.resolve (outDir ++ '/' :: nm) ∉ fs1.dirs := by
    intro hm
    rcases g6 _ hm with h | h
    · exact hfree h
    · have := h.length_le
      rw [hres] at this
      simp at this
  obtain ⟨fs2, w1, w2⟩ := OutDir.write (fs := fs1) (o := outDir) (nm := nm) (c := []) (by rw [r1]; exact g2) hns hne hnd
    (by rw [r1]; exact hdir) (by rw [r1]; exact g5)
  obtain ⟨a1, a2, _, a4⟩ := Fs.write_ok w1
  have r2 : ∀ p, fs2.resolve p = fs.resolve p := fun p => (Fs.resolve_cwd a1 p).trans (r1 p)
  rw [r1] at w2
  have htx : ∃ txt, neighboursText L s n sim s2 (textLines content) = .ok txt := by
    generalize textLines content = ws at hok
    induction ws with
    | nil => exact ⟨_, rfl⟩
    | cons w ws ih =>
      obtain ⟨ns, h1⟩ := hok w (by simp)
      obtain ⟨txt, h2⟩ := ih (fun v hv => hok v (by simp [hv]))
      exact ⟨_, by simp only [neighboursText, h1, h2, ok_bind, pure_eq_ok]; rfl⟩
  obtain ⟨txt, htx⟩ := htx
  obtain ⟨fs3, w3, _⟩ := OutDir.write (fs := fs2) (o := outDir) (nm := nm) (c := txt) (by rw [r2]; exact w2) hns hne hnd
    (by rw [r2, a2]; exact hdir) (by rw [r2, a2]; exact g5)
  have hrd : fs1.read inFile = .ok content := by rw [← hr]; exact read_congr g3 (by rw [g4])
  refine ⟨fs3, ?_⟩
  simp only [g1, ok_bind, hrd, w1, htx, w3]

/-- **C82** An unknown measure is a `ValueError`. -/
theorem C82_unknown_measure {L : Lib} {fs : Fs} {inFile outDir m : Str} {n : ℤ} {files : List Str}
    (hk : ∀ sim, (m, sim) ∉ measureTable) : computeNeighbours L inFile n outDir m files fs = .error .valueError := by
  unfold computeNeighbours
  rw [simOf_none.2 hk]

/-! ### C83 -/

/-- The number in column `i` (counted from 0) of a record. -/
def NumberIn (io : NumIO) (i : ℕ) (words : List Str) (x : ℝ) : Prop := ∃ w, words[i]? = some w ∧ io.parse w = some x

theorem goldPrediction_ok {io : NumIO} {i j : ℕ} : ∀ {ls : List Str} {gold pred : List ℝ},
    goldPrediction io (i : ℤ) (j : ℤ) ls = .ok (gold, pred) ↔
      List.Forall₂ (NumberIn io i) (ls.map split) gold ∧ List.Forall₂ (NumberIn io j) (ls.map split) pred := by
  intro ls
  induction ls with
  | nil => intro gold pred; simp [goldPrediction, eq_comm]
  | cons l ls ih =>
    intro gold pred
    simp only [goldPrediction, bind_eq_ok, pure_eq_ok, List.map_cons, Prod.exists]
    constructor
    · rintro ⟨a, h1, g, h2, b, h3, p, h4, gs, ps, h5, h⟩
      have h := ok_inj h
      injection h with e1 e2
      subst e1 e2
      obtain ⟨f1, f2⟩ := ih.1 h5
      exact ⟨.cons ⟨a, pyGet_nat_iff.1 h1, pyFloat_ok.1 h2⟩ f1, .cons ⟨b, pyGet_nat_iff.1 h3, pyFloat_ok.1 h4⟩ f2⟩
    · rintro ⟨f1, f2⟩
      cases f1 with
      | cons a1 a2 => cases f2 with
        | cons b1 b2 =>
          obtain ⟨a, h1, h2⟩ := a1
          obtain ⟨b, h3, h4⟩ := b1
          exact ⟨a, pyGet_nat_iff.2 h1, _, pyFloat_ok.2 h2, b, pyGet_nat_iff.2 h3, _, pyFloat_ok.2 h4, _, _,
            ih.2 ⟨a2, b2⟩, rfl⟩

theorem scoreLoop_ok {lib : StatsLib} {gold pred : List ℝ} : ∀ {ms : List Str} {r : List (Str × ℝ)},
    scoreLoop lib gold pred ms = .ok r ↔ List.Forall₂ (fun m x => x.1 = m ∧ score lib gold pred m = .ok x.2) ms r := by
  intro ms
  induction ms with
  | nil => intro r; simp [scoreLoop, eq_comm]
  | cons m ms ih =>
    intro r
    simp only [scoreLoop, bind_eq_ok, pure_eq_ok]
    constructor
    · rintro ⟨x, h1, rest, h2, h⟩
      obtain rfl := ok_inj h
      exact .cons ⟨rfl, h1⟩ (ih.1 h2)
    · intro h
      cases h with
      | @cons _ y _ ys h1 h2 =>
        obtain ⟨y1, y2⟩ := y
        obtain ⟨rfl, h1⟩ := h1
        exact ⟨y2, h1, _, ih.2 h2, rfl⟩

/-- **C83** `evaluate_sim` reports, for each measure in order, the score of the numbers in the two requested columns of all
non-blank lines — and succeeds only (and always) when these numbers and scores exist. -/
theorem C83_scores {L : Lib} {fs : Fs} {inFile a b : Str} {i j : ℕ} {measures : List Str} {r : List (Str × ℝ)}
    (ha : pyInt a = .ok ((i + 1 : ℕ) : ℤ)) (hb : pyInt b = .ok ((j + 1 : ℕ) : ℤ)) :
    evaluateSim L fs inFile [a, b] measures = .ok r ↔
      ∃ content gold pred, fs.read inFile = .ok content ∧ List.Forall₂ (NumberIn L.io i) (records content) gold ∧
        List.Forall₂ (NumberIn L.io j) (records content) pred ∧
        List.Forall₂ (fun m x => x.1 = m ∧ score L.stats gold pred m = .ok x.2) measures r := by
  simp only [evaluateSim, twoColumns_ok ha hb, ok_bind, bind_eq_ok, Prod.exists, goldPrediction_ok, scoreLoop_ok,
    split_strippedLines]
  constructor
  · rintro ⟨c, h1, g, p, ⟨h2, h3⟩, h4⟩
    exact ⟨c, g, p, h1, h2, h3, h4⟩
  · rintro ⟨c, g, p, h1, h2, h3, h4⟩
    exact ⟨c, h1, g, p, ⟨h2, h3⟩, h4⟩

theorem evalLoop_ok {L : Lib} {fs : Fs} {dir : Str} {columns measures : List Str} : ∀ {names : List Str}
    {r : List (Str × List (Str × ℝ))}, evalLoop L fs dir columns measures names = .ok r ↔
      List.Forall₂ (fun f x => x.1 = f ∧ evaluateSim L fs (dir ++ f) columns measures = .ok x.2) names r := by
  intro names
  induction names with
  | nil => intro r; simp [evalLoop, eq_comm]
  | cons m ms ih =>
    intro r
    simp only [evalLoop, bind_eq_ok, pure_eq_ok]
    constructor
    · rintro ⟨x, h1, rest, h2, h⟩
      obtain rfl := ok_inj h
      exact .cons ⟨rfl, h1⟩ (ih.1 h2)
    · intro h
      cases h with
      | @cons _ y _ ys h1 h2 =>
        obtain ⟨y1, y2⟩ := y
        obtain ⟨rfl, h1⟩ := h1
        exact ⟨y2, h1, _, ih.2 h2, rfl⟩

/-- **C83** With `--in_dir`: exactly the entries of the directory that contain the filter are evaluated, each one once for
each time it is listed, and each gets the result of its own file. -/
theorem C83_batch {L : Lib} {fs : Fs} {inDir filter : Str} {columns measures : List Str} {r : List (Str × List (Str × ℝ))}
    (hord : ∀ l, (L.dirOrder l).Perm l) (h : evaluateSimBatch L fs inDir columns measures filter = .ok r) :
    (r.map Prod.fst).Perm ((fs.children (fs.resolve (withSlash inDir))).filter (fun f => decide (filter <:+: f))) ∧
    ∀ x ∈ r, evaluateSim L fs (withSlash inDir ++ x.1) columns measures = .ok x.2 := by
  unfold evaluateSimBatch at h
  split at h
  swap
  · cases h
  rw [bind_eq_ok] at h
  obtain ⟨names, hl, h⟩ := h
  unfold Fs.listdir at hl
  split at hl
  swap
  · cases hl
  obtain rfl := ok_inj hl
  replace h := evalLoop_ok.1 h
  have hp : ((L.dirOrder (fs.children (fs.resolve (withSlash inDir)))).filter (fun f => containsStr f filter)).Perm
      ((fs.children (fs.resolve (withSlash inDir))).filter (fun f => decide (filter <:+: f))) := (hord _).filter _
  refine ⟨?_, ?_⟩
  · refine List.Perm.trans (List.Perm.of_eq ?_) hp
    generalize List.filter _ (L.dirOrder _) = ns at h
    clear hp hl
    induction h with
    | nil => rfl
    | cons h1 _ ih => rw [List.map_cons, ih, h1.1]
  · intro x hx
    obtain ⟨f, hf, h1, h2⟩ : ∃ f ∈ (L.dirOrder (fs.children (fs.resolve (withSlash inDir)))).filter (fun f => containsStr f filter),
        x.1 = f ∧ evaluateSim L fs (withSlash inDir ++ f) columns measures = .ok x.2 := by
      generalize List.filter _ (L.dirOrder _) = ns at h
      clear hp hl
      induction h with
      | nil => cases hx
      | @cons f y _ ys h1 _ ih =>
        rcases List.mem_cons.1 hx with rfl | hx
        · exact ⟨f, by simp, h1⟩
        · obtain ⟨f', a, b⟩ := ih hx
          exact ⟨f', by simp [a], b⟩
    rw [h1]; exact h2

/-- **C83** The wrong number of columns or a column that is not a number is a `ValueError`. -/
theorem C83_bad_columns {L : Lib} {fs : Fs} {inFile : Str} {columns measures : List Str}
    (h : columns.length ≠ 2 ∨ ∃ a b e, columns = [a, b] ∧ (pyInt a = .error e ∨ (∃ x, pyInt a = .ok x) ∧ pyInt b = .error e)) :
    evaluateSim L fs inFile columns measures = .error .valueError := by
  have herr : ∀ s e, pyInt s = .error e → e = .valueError := by
    intro s e h
    unfold pyInt at h
    split at h <;> (split at h <;> first | (injection h with h; exact h.symm) | cases h)
  have : twoColumns columns = .error .valueError := by
    rcases h with h | ⟨a, b, e, rfl, h | ⟨⟨x, hx⟩, h⟩⟩
    · match columns, h with
      | [], _ => rfl
      | [_], _ => rfl
      | [_, _], h => simp at h
      | _ :: _ :: _ :: _, _ => rfl
    · obtain rfl := herr _ _ h
      simp [twoColumns, h]
    · obtain rfl := herr _ _ h
      simp [twoColumns, hx, h]
  simp [evaluateSim, this]

/-! ### C88 -/

theorem forall₂_mem {α β : Type} {R : α → β → Prop} {l : List α} {m : List β} (h : List.Forall₂ R l m) :
    ∀ a ∈ l, ∃ b, R a b := by
  induction h with
  | nil => simp
  | cons h1 _ ih =>
    intro a ha
    rcases List.mem_cons.1 ha with rfl | ha
    · exact ⟨_, h1⟩
    · exact ih a ha

/-- **C88** (partial: for column numbers from 1) A line that lacks one of the columns makes both scripts fail. -/
theorem C88_missing_column_partial {L : Lib} {fs : Fs} {inFile base a b content : Str} {i j : ℕ} {words : List Str}
    (ha : pyInt a = .ok ((i + 1 : ℕ) : ℤ)) (hb : pyInt b = .ok ((j + 1 : ℕ) : ℤ)) (hr : fs.read inFile = .ok content)
    (hw : words ∈ records content) (hlen : words.length ≤ i ∨ words.length ≤ j) :
    (∀ measures r, evaluateSim L fs inFile [a, b] measures ≠ .ok r) ∧
    (IsBase inFile base → IsFileName base → ∀ outDir measures files d s s2 fs', SpacesName files d →
      SpacesFrom L fs files s s2 → (∃ m ∈ measures, ∃ sim, (m, sim) ∈ measureTable) →
      computeSim L inFile [a, b] outDir measures files fs ≠ .ok fs') := by
  constructor
  · intro measures r h
    obtain ⟨c, g, p, h1, h2, h3, _⟩ := (C83_scores ha hb).1 h
    rw [hr] at h1
    obtain rfl := ok_inj h1
    obtain ⟨_, w, h4, _⟩ := forall₂_mem h2 words hw
    obtain ⟨_, w', h5, _⟩ := forall₂_mem h3 words hw
    have := (List.getElem?_eq_some_iff.1 h4).1
    have := (List.getElem?_eq_some_iff.1 h5).1
    omega
  · rintro hbase hn outDir measures files d s s2 fs' hnm hs ⟨m, hm, sim, hk⟩ h
    obtain ⟨c, out, h1, ⟨ls, h2, _⟩, _⟩ := C71_scores hbase hn ha hb hnm hs h hm hk
    rw [hr] at h1
    obtain rfl := ok_inj h1
    rw [← split_strippedLines] at hw
    obtain ⟨l, hl, rfl⟩ := List.mem_map.1 hw
    obtain ⟨_, w1, w2, x, h3, h4, _⟩ := forall₂_mem h2 l hl
    have := (List.getElem?_eq_some_iff.1 h3).1
    have := (List.getElem?_eq_some_iff.1 h4).1
    omega

/-- **C88** (refutation) Column number 0 is accepted: it denotes the last column of each line, so that the numbers of the
last column are scored. -/
theorem C88_refuted {L : Lib} {fs : Fs} {inFile content : Str} (hr : fs.read inFile = .ok content) {xs : List ℝ}
    (h : List.Forall₂ (fun words x => ∃ w, words.getLast? = some w ∧ L.io.parse w = some x) (records content) xs)
    {measures : List Str} {r : List (Str × ℝ)}
    (hs : List.Forall₂ (fun m x => x.1 = m ∧ score L.stats xs xs m = .ok x.2) measures r) :
    evaluateSim L fs inFile [cs!"0", cs!"0"] measures = .ok r := by
  have key : goldPrediction L.io (-1) (-1) (strippedLines content) = .ok (xs, xs) := by
    clear hs
    rw [← split_strippedLines] at h
    generalize strippedLines content = ls at h
    induction ls generalizing xs with
    | nil => cases h; rfl
    | cons l ls ih =>
      rw [List.map_cons] at h
      cases h with
      | @cons _ x _ ys h1 h2 =>
        obtain ⟨w, h1, h3⟩ := h1
        have hg : pyGet (split l) (-1) = .ok w := by
          have hne : split l ≠ [] := by intro h; rw [h] at h1; cases h1
          have hlen := List.length_pos_iff.2 hne
          rw [List.getLast?_eq_getElem?] at h1
          refine pyGet_eq_ok.2 ⟨(split l).length - 1, ?_, h1⟩
          unfold pyIdx
          rw [if_neg (by omega), if_pos (by omega)]
          congr 1
          omega
        simp only [goldPrediction, hg, ok_bind, pyFloat_ok.2 h3, ih h2, pure_eq_ok]
  have h0 : twoColumns [cs!"0", cs!"0"] = .ok (-1, -1) := rfl
  simp only [evaluateSim, h0, ok_bind, hr, key]
  exact scoreLoop_ok.2 hs

end
end Dissect
