import Verif.Lemmas.CrashSafe
import Verif.Props.PeriphScript
import Verif.Props.Neighbours

/-!
# C90: a script that fails or is killed breaks at most one output file

`(xR …).seen g` says that the disk may look like `g` at some moment of the run of `x`, so that `g` is what an exception,
`sys.exit` or the death of the process may leave behind; `(xR …).out` is the outcome of the big-step model
(`Lemmas/Crash.lean`).
-/

namespace Dissect
noncomputable section

/-! ### `build_core_space.py` -/

/-- A complete output of `build_core_space.py`: the text for the result of one combination of the options. -/
def CoreComplete (L : Lib) (fs : Fs) (pre base fmt outDir : Str) (gz : Bool) (ws ss rs ns : List (Option Str))
    (n : List Str) (c : Str) : Prop :=
  ∃ input ch res, InputSpace L fs pre gz fmt input ∧ choices ws ss rs ns ch ∧ ch.Result L.env input res ∧
    CompleteFile L fs (coreFile outDir base ch) res n c

/-- The files `build_core_space.py` may write. -/
def CoreOutput (fs : Fs) (base outDir : Str) (ws ss rs ns : List (Option Str)) (n : List Str) : Prop :=
  ∃ ch, choices ws ss rs ns ch ∧ FileOf fs (coreFile outDir base ch) n

theorem buildSpacesR_safe {L : Lib} {fs0 fs : Fs} {C : List Str → Str → Prop} {O : List Str → Prop}
    {pre base fmt outDir : Str} {outFormat : Option Str}
    {ws ss rs ns : List (Option Str)} {gz : Bool} (hb : IsBase pre base) (hn : NoneBroken fs0 fs C)
    (hin : ∀ input, InputSpace L fs pre gz fmt input → InputSpace L fs0 pre gz fmt input)
    (hC : ∀ n c, CoreComplete L fs0 pre base fmt outDir gz ws ss rs ns n c → C n c)
    (hO : ∀ n, CoreOutput fs0 base outDir ws ss rs ns n → O n) :
    CrashSafe fs0 C O (buildSpacesR L fs pre fmt outDir outFormat ws ss rs ns gz) := by
  refine .compute hn (fun input hi => ?_)
  replace hi := hin _ (readInput_ok.1 hi)
  refine .forR ws 0 hn (fun i w hw fs1 h1 => .compute h1 (fun wS hwS => ?_))
  obtain ⟨a, ha, hap⟩ := applyWeighting_means hwS
  refine .forR ss 0 h1 (fun j s hs fs2 h2 => .compute h2 (fun sS hsS => ?_))
  obtain ⟨b, hb', hbp⟩ := applySelection_means hsS
  refine .forR rs 0 h2 (fun k r hr fs3 h3 => .compute h3 (fun rS hrS => ?_))
  obtain ⟨d, hd, hdp⟩ := applyReduction_means hrS
  refine .forR ns 0 h3 (fun _ n hnn fs4 h4 => .compute h4 (fun nS hnS => ?_))
  obtain ⟨e, he, hep⟩ := applyNormalization_means hnS
  have hch : choices ws ss rs ns ⟨w, s, r, n⟩ := ⟨hw, hs, hr, hnn⟩
  have hres : Choice.Result L.env input ⟨w, s, r, n⟩ nS :=
    ⟨a, b, d, e, ha, hb', hd, he, by
      rw [applyAll_append', applyAll_append', applyAll_append', hap]
      simp only [ok_bind, hbp, hdp, hep]⟩
  have hf : spaceFile outDir [some (coreDescr pre), w, s, r, n] = coreFile outDir base ⟨w, s, r, n⟩ :=
    choiceFile_eq hb ⟨w, s, r, n⟩
  rw [hf]
  exact .printR h4 (fun m hm => hO m ⟨_, hch, hm⟩) (fun m c hm => hC m c ⟨input, _, nS, hi, hch, hres, hm⟩)

/-- **C90** At every moment of the run of `build_spaces` on any options, every file on the disk is as it was before the run
or holds the complete text for the result of one of the combinations, with the exception of at most one of the outputs. -/
theorem C90_build_core_space {L : Lib} {fs g : Fs} {pre base fmt outDir : Str} {outFormat : Option Str}
    {ws ss rs ns : List (Option Str)} {gz : Bool} (hb : IsBase pre base)
    (h : (buildSpacesR L fs pre fmt outDir outFormat ws ss rs ns gz).seen g) :
    OneBroken fs g (CoreComplete L fs pre base fmt outDir gz ws ss rs ns) (CoreOutput fs base outDir ws ss rs ns) :=
  (buildSpacesR_safe hb (NoneBroken.refl fs) (fun _ h => h) (fun _ _ h => h) (fun _ h => h)).seen g h

/-- **C90** When `build_spaces` returns, there is no exception at all. -/
theorem C90_build_core_space_returns {L : Lib} {fs g : Fs} {pre base fmt outDir : Str} {outFormat : Option Str}
    {ws ss rs ns : List (Option Str)} {gz : Bool} (hb : IsBase pre base)
    (h : buildSpaces L fs pre fmt outDir outFormat ws ss rs ns gz = .ok g) :
    NoneBroken fs g (CoreComplete L fs pre base fmt outDir gz ws ss rs ns) :=
  (buildSpacesR_safe (O := CoreOutput fs base outDir ws ss rs ns) hb (NoneBroken.refl fs) (fun _ h => h) (fun _ _ h => h)
    (fun _ h => h)).out g (by rw [buildSpacesR_out]; exact h)

/-! ### `build_peripheral_space.py` -/

/-- A complete output of `build_peripheral_space.py` for the core space stored in `core`. -/
def PeriphComplete (L : Lib) (fs : Fs) (pre base fmt outDir core : Str) (gz : Bool) (n : List Str) (c : Str) : Prop :=
  ∃ raw sp p st, InputSpace L fs pre gz fmt raw ∧ HoldsSpace L fs core sp ∧ PeriphFrom raw sp p ∧ IsStem core st ∧
    CompleteFile L fs (periphFile outDir base st) p n c

/-- The files written for the core space in `core`. -/
def PeriphOutput (fs : Fs) (base outDir core : Str) (n : List Str) : Prop :=
  ∃ st, IsStem core st ∧ FileOf fs (periphFile outDir base st) n

theorem transformRawR_safe {L : Lib} {fs0 fs : Fs} {C : List Str → Str → Prop} {O : List Str → Prop} {raw : Space Str}
    {pre base fmt outDir core : Str} {outFormat : Option Str} {gz : Bool} (hb : IsBase pre base)
    (hraw : InputSpace L fs0 pre gz fmt raw)
    (hC : ∀ n c, PeriphComplete L fs0 pre base fmt outDir core gz n c → C n c)
    (hO : ∀ n, PeriphOutput fs0 base outDir core n → O n) (hn : NoneBroken fs0 fs C)
    (hcore : ∀ s, HoldsSpace L fs core s → HoldsSpace L fs0 core s) :
    CrashSafe fs0 C O (transformRawR L raw pre outDir outFormat core fs) := by
  refine .compute hn (fun c hc => .compute hn (fun p hp => ?_))
  rw [periphFile_eq hb (stem_spec core)]
  exact .printR hn (fun m hm => hO m ⟨_, stem_spec _, hm⟩)
    (fun m t hm => hC m t ⟨raw, c, p, _, hraw, hcore _ (loadSpace_ok.1 hc), hp, stem_spec _, hm⟩)

/-- **C90** The same for `build_peripheral_space.py` with one core space. -/
theorem C90_build_peripheral_space {L : Lib} {fs g : Fs} {pre base fmt outDir core : Str} {outFormat : Option Str} {gz : Bool}
    (hb : IsBase pre base) (h : (buildPeriphR L fs pre fmt outDir outFormat core gz).seen g) :
    OneBroken fs g (PeriphComplete L fs pre base fmt outDir core gz) (PeriphOutput fs base outDir core) := by
  refine CrashSafe.seen (CrashSafe.compute (NoneBroken.refl fs) (fun raw hraw => ?_)) g h
  exact transformRawR_safe hb (readInput_ok.1 hraw) (fun _ _ h => h) (fun _ h => h) (NoneBroken.refl fs) (fun _ h => h)

/-- A file that is no output reads the same on every disk without broken files. -/
theorem NoneBroken.read {fs0 fs : Fs} {C : List Str → Str → Prop} (h : NoneBroken fs0 fs C) {p : Str}
    (hp : ∀ c, ¬ C (fs0.resolve p) c) : fs.read p = fs0.read p := by
  refine read_congr h.cwd ?_
  rcases h.files (fs0.resolve p) with h | ⟨c, h1, _⟩
  · exact h
  · exact absurd h1 (hp c)

/-- **C90** The same in batch mode, provided the core spaces are not themselves outputs. -/
theorem C90_build_peripheral_space_batch {L : Lib} {fs g : Fs} {pre base fmt outDir inDir filter : Str}
    {outFormat : Option Str} {gz : Bool} (hb : IsBase pre base)
    (hdirs : ∀ core n, PeriphOutput fs base outDir core n → ∀ nm, n ≠ fs.resolve (withSlash inDir ++ nm))
    (h : (buildPeriphBatchR L fs pre fmt outDir outFormat inDir filter gz).seen g) :
    OneBroken fs g (fun n c => ∃ core, PeriphComplete L fs pre base fmt outDir core gz n c)
      (fun n => ∃ core, PeriphOutput fs base outDir core n) := by
  refine CrashSafe.seen (CrashSafe.compute (NoneBroken.refl fs) (fun raw hraw => ?_)) g h
  split
  · refine .compute (NoneBroken.refl fs) (fun names _ => .forR _ 0 (NoneBroken.refl fs) (fun _ nm _ fs1 h1 => ?_))
    refine transformRawR_safe (core := withSlash inDir ++ nm) hb (readInput_ok.1 hraw) (fun _ _ h => ⟨_, h⟩)
      (fun _ h => ⟨_, h⟩) h1 (fun s hs => ?_)
    obtain ⟨txt, hr, hu⟩ := hs
    refine ⟨txt, ?_, hu⟩
    rw [← hr]
    refine (h1.read (fun c => ?_)).symm
    rintro ⟨core, raw', sp, p, st, _, _, _, hst, e, hn, he⟩
    refine hdirs core _ ⟨st, hst, e, ?_, hn⟩ nm rfl
    cases he <;> decide
  · exact .fail (NoneBroken.refl fs)

/-! ### `compute_similarities.py` and `compute_neighbours.py` -/

/-- **C90** The same for `compute_similarities.py`: a complete output has one line for every non-blank line of the input. -/
theorem C90_compute_similarities {L : Lib} {fs g : Fs} {inFile base outDir d a b : Str} {files : List Str} {i j : ℕ}
    {s : Space Str} {s2 : Option (Space Str)} {measures : List Str} (hb : IsBase inFile base) (hn : IsFileName base)
    (ha : pyInt a = .ok ((i + 1 : ℕ) : ℤ)) (hb' : pyInt b = .ok ((j + 1 : ℕ) : ℤ)) (hnm : SpacesName files d)
    (hs : SpacesFrom L fs files s s2) (h : (computeSimR L inFile [a, b] outDir measures files fs).seen g) :
    OneBroken fs g
      (fun n c => ∃ m sim content, m ∈ measures ∧ (m, sim) ∈ measureTable ∧ n = fs.resolve (simsFile outDir base d m) ∧
        fs.read inFile = .ok content ∧ SimFile L s s2 sim i j content c)
      (fun n => ∃ m sim, m ∈ measures ∧ (m, sim) ∈ measureTable ∧ n = fs.resolve (simsFile outDir base d m)) := by
  have hfiles : ∃ f gs, files = f :: gs := by cases hs <;> exact ⟨_, _, rfl⟩
  obtain ⟨f, gs, rfl⟩ := hfiles
  have h1 : loadSpace L fs f = .ok s := by
    cases hs with
    | two h _ => exact loadSpace_ok.2 h
    | one h _ => exact loadSpace_ok.2 h
  have h2 := (loadSecond_spaces h1).2 hs
  have hd := (spacesDescr_eq hnm).2
  have h3 := (spacesDescr_eq hnm).1
  have hj : ∀ m, outDir ++ ['/'] ++ joinStr ['.'] [cs!"SIMS", base, d] ++ ['.'] ++ m = simsFile outDir base d m := by
    intro m; simp [joinStr, simsFile]
  have hin : ∀ m sim, (m, sim) ∈ measureTable → fs.resolve inFile ≠ fs.resolve (simsFile outDir base d m) := by
    intro m sim hm
    rw [simsFile_eq]
    refine resolve_longer fs hb hn (simsName_noslash hb.1 hd hm) ?_ (by simp)
    simp; omega
  refine CrashSafe.seen (CrashSafe.compute (NoneBroken.refl fs) (fun c hc => ?_)) g h
  rw [twoColumns_ok ha hb'] at hc
  obtain rfl := ok_inj hc
  simp only [h1]
  refine .compute (NoneBroken.refl fs) (fun sp2 hsp => ?_)
  rw [h2] at hsp
  obtain rfl := ok_inj hsp
  simp only [h3, lastComp_of_base hb]
  refine .forR measures 0 (NoneBroken.refl fs) (fun _ m hm fs1 hf1 => ?_)
  unfold simMeasureR
  split
  · exact .done hf1
  · rename_i sim hsim
    have hk := simOf_eq.1 hsim
    simp only [hj]
    refine .andThen (.createParentR hf1) (fun fs2 _ hf2 => .compute hf2 (fun _ _ => ?_))
    refine .truncThenWrite hf2 ⟨m, sim, hm, hk, rfl⟩ (fun fs3 content out hf3 hc ho => ?_)
    refine ⟨m, sim, content, hm, hk, rfl, ?_, ?_⟩
    · rw [← hc]
      refine (read_congr hf3.cwd ?_).symm
      rcases hf3.files (fs.resolve inFile) (hin m sim hk) with h | ⟨c, ⟨m', sim', _, _, hk', hn', _⟩, _⟩
      · exact h
      · exact absurd hn' (hin m' sim' hk')
    · obtain ⟨ls, h5, h6⟩ := simText_ok.1 ho
      exact ⟨ls, h5, h6⟩

/-- One space file of the batch mode of `compute_similarities.py`. -/
theorem computeSimR_safe {L : Lib} {fs0 fs : Fs} {C : List Str → Str → Prop} {O : List Str → Prop}
    {inFile base outDir d a b f : Str} {i j : ℕ} {measures : List Str} (hb : IsBase inFile base) (hn : IsFileName base)
    (ha : pyInt a = .ok ((i + 1 : ℕ) : ℤ)) (hb' : pyInt b = .ok ((j + 1 : ℕ) : ℤ)) (hd : IsStem f d)
    (h0 : NoneBroken fs0 fs C)
    (hC : ∀ s m sim content c, HoldsSpace L fs f s → m ∈ measures → (m, sim) ∈ measureTable → fs0.read inFile = .ok content →
      SimFile L s none sim i j content c → C (fs0.resolve (simsFile outDir base d m)) c)
    (hO : ∀ m sim, m ∈ measures → (m, sim) ∈ measureTable → O (fs0.resolve (simsFile outDir base d m)))
    (hin0 : ∀ c, ¬ C (fs0.resolve inFile) c) : CrashSafe fs0 C O (computeSimR L inFile [a, b] outDir measures [f] fs) := by
  have hnm : SpacesName [f] d := .one (by simp) hd
  have hdn := (spacesDescr_eq hnm).2
  have h3 := (spacesDescr_eq hnm).1
  have hj : ∀ m, outDir ++ ['/'] ++ joinStr ['.'] [cs!"SIMS", base, d] ++ ['.'] ++ m = simsFile outDir base d m := by
    intro m; simp [joinStr, simsFile]
  have hin : ∀ m sim, (m, sim) ∈ measureTable → fs0.resolve inFile ≠ fs0.resolve (simsFile outDir base d m) := by
    intro m sim hm
    rw [simsFile_eq]
    refine resolve_longer fs0 hb hn (simsName_noslash hb.1 hdn hm) ?_ (by simp)
    simp; omega
  refine CrashSafe.compute h0 (fun c hc => ?_)
  rw [twoColumns_ok ha hb'] at hc
  obtain rfl := ok_inj hc
  cases h1 : loadSpace L fs f with
  | error e =>
    simp only [h1]
    split
    · exact .done h0
    · exact .fail h0
    · rename_i hx; cases hx
  | ok s =>
    simp only [h1]
    refine .compute h0 (fun sp2 hsp => ?_)
    have hsp2 : sp2 = none := by
      have : loadSecond L fs [f] = .ok none := rfl
      rw [this] at hsp
      exact (ok_inj hsp).symm
    subst hsp2
    simp only [h3, lastComp_of_base hb]
    refine .forR measures 0 h0 (fun _ m hm fs1 hf1 => ?_)
    unfold simMeasureR
    split
    · exact .done hf1
    · rename_i sim hsim
      have hk := simOf_eq.1 hsim
      simp only [hj]
      refine .andThen (.createParentR hf1) (fun fs2 _ hf2 => .compute hf2 (fun _ _ => ?_))
      refine .truncThenWrite hf2 (hO m sim hm hk) (fun fs3 content out hf3 hc ho => ?_)
      refine hC s m sim content out (loadSpace_ok.1 h1) hm hk ?_ ?_
      · rw [← hc]
        refine (read_congr hf3.cwd ?_).symm
        rcases hf3.files (fs0.resolve inFile) (hin m sim hk) with h | ⟨c, hc', _⟩
        · exact h
        · exact absurd hc' (hin0 c)
      · obtain ⟨ls, h5, h6⟩ := simText_ok.1 ho
        exact ⟨ls, h5, h6⟩

/-- **C90** The same in batch mode, provided that the spaces are not themselves outputs. -/
theorem C90_compute_similarities_batch {L : Lib} {fs g : Fs} {inFile base outDir inDir a b : Str} {i j : ℕ}
    {measures : List Str} (hb : IsBase inFile base) (hn : IsFileName base)
    (ha : pyInt a = .ok ((i + 1 : ℕ) : ℤ)) (hb' : pyInt b = .ok ((j + 1 : ℕ) : ℤ))
    (hdirs : ∀ d m sim, m ∈ measures → (m, sim) ∈ measureTable → ∀ nm,
      fs.resolve (simsFile outDir base d m) ≠ fs.resolve (withSlash inDir ++ nm))
    (h : (computeSimBatchR L inFile [a, b] outDir measures inDir fs).seen g) :
    OneBroken fs g
      (fun n c => ∃ file d s m sim content, IsStem file d ∧ HoldsSpace L fs file s ∧ m ∈ measures ∧ (m, sim) ∈ measureTable ∧
        n = fs.resolve (simsFile outDir base d m) ∧ fs.read inFile = .ok content ∧ SimFile L s none sim i j content c)
      (fun n => ∃ file d m sim, IsStem file d ∧ m ∈ measures ∧ (m, sim) ∈ measureTable ∧
        n = fs.resolve (simsFile outDir base d m)) := by
  unfold computeSimBatchR at h
  refine CrashSafe.seen (O := _) (C := _) ?_ g h
  split
  · refine .compute (NoneBroken.refl fs) (fun names _ => .forR _ 0 (NoneBroken.refl fs) (fun _ nm _ fs1 h1 => ?_))
    refine computeSimR_safe hb hn ha hb' (stem_spec (withSlash inDir ++ nm)) h1 (fun s m sim content c hs hm hk hc ht => ?_)
      (fun m sim hm hk => ⟨_, _, m, sim, stem_spec (withSlash inDir ++ nm), hm, hk, rfl⟩) ?_
    · obtain ⟨txt, hr, hu⟩ := hs
      refine ⟨_, _, s, m, sim, content, stem_spec (withSlash inDir ++ nm), ⟨txt, ?_, hu⟩, hm, hk, rfl, hc, ht⟩
      rw [← hr]
      refine (h1.read (fun c => ?_)).symm
      rintro ⟨file, d, s', m', sim', -, -, -, hm', hk', hn', -⟩
      exact hdirs d m' sim' hm' hk' nm hn'.symm
    · rintro c ⟨file, d, s', m', sim', -, hst, -, hm', hk', hn', -⟩
      have hdn := (spacesDescr_eq (.one (gs := []) (by simp) hst)).2
      refine absurd hn' ?_
      rw [simsFile_eq]
      refine resolve_longer fs hb hn (simsName_noslash hb.1 hdn hk') ?_ (by simp)
      simp; omega
  · exact .fail (NoneBroken.refl fs)

/-- **C90** The same for `compute_neighbours.py`. -/
theorem C90_compute_neighbours {L : Lib} {fs g : Fs} {inFile base outDir d m : Str} {n : ℤ} {files : List Str} {s : Space Str}
    {s2 : Option (Space Str)} {sim : Sim} (hb : IsBase inFile base) (hnm : SpacesName files d)
    (hs : SpacesFrom L fs files s s2) (hk : (m, sim) ∈ measureTable)
    (h : (computeNeighboursR L inFile n outDir m files fs).seen g) :
    OneBroken fs g
      (fun x c => x = fs.resolve (neighboursFile outDir base d m) ∧ ∃ content blocks, fs.read inFile = .ok content ∧
        List.Forall₂ (NeighbourBlock L s s2 sim n) (textLines content) blocks ∧ c = blocks.flatten)
      (fun x => x = fs.resolve (neighboursFile outDir base d m)) := by
  have hfiles : ∃ f gs, files = f :: gs := by cases hs <;> exact ⟨_, _, rfl⟩
  obtain ⟨f, gs, rfl⟩ := hfiles
  have h1 : loadSpace L fs f = .ok s := by
    cases hs with
    | two h _ => exact loadSpace_ok.2 h
    | one h _ => exact loadSpace_ok.2 h
  have h2 := (loadSecond_spaces h1).2 hs
  have h3 := (spacesDescr_eq hnm).1
  have hj : outDir ++ ['/'] ++ joinStr ['.'] [cs!"NEIGHBOURS", base, d] ++ ['.'] ++ m = neighboursFile outDir base d m := by
    simp [joinStr, neighboursFile]
  unfold computeNeighboursR at h
  simp only [simOf_eq.2 hk, h3, lastComp_of_base hb, hj] at h
  refine CrashSafe.seen (CrashSafe.compute (NoneBroken.refl fs) (fun sp hsp => ?_)) g h
  rw [h1] at hsp
  obtain rfl := ok_inj hsp
  refine .compute (NoneBroken.refl fs) (fun sp2 hsp => ?_)
  rw [h2] at hsp
  obtain rfl := ok_inj hsp
  refine .andThen (.createParentR (NoneBroken.refl fs)) (fun fs1 hfs1 hf1 => ?_)
  rw [createParentR_out] at hfs1
  have g1 := Fs.createParent_files hfs1
  refine .compute hf1 (fun content hcont => .compute hf1 (fun ws hws => ?_))
  have := CrashSafe.truncThenWrite (x := fun _ => .ok ws) (txt := fun ws => neighboursText L s n sim s2 ws) hf1
    (O := fun x => x = fs.resolve (neighboursFile outDir base d m)) (p := neighboursFile outDir base d m) rfl
    (fun fs3 ws' out _ hw ho => by
      obtain rfl := ok_inj hw
      obtain ⟨bs, h5, h6⟩ := neighboursText_ok.1 ho
      refine ⟨rfl, content, bs, ?_, ?_, h6⟩
      · rw [← hcont]; exact (read_congr g1.2 (by rw [g1.1])).symm
      · have : ws = textLines content := by
          unfold readList at hws
          exact (ok_inj hws).symm
        rw [← this]; exact h5)
  constructor
  · rintro g' (hg | ⟨fs2, h5, h6⟩)
    · exact this.seen g' (Or.inl hg)
    · exact this.seen g' (Or.inr ⟨fs2, h5, Or.inr ⟨ws, rfl, h6⟩⟩)
  · intro g' hg
    exact this.out g' (by
      rw [Run.andThen_out] at hg ⊢
      obtain ⟨fs2, h5, h6⟩ := except_bind_ok hg
      rw [h5]
      exact h6)

/-! ### `train_composition.py` and `apply_composition.py` -/

/-- A complete output of `train_composition.py`: the pickled model, or its parameters. -/
inductive ModelText (L : Lib) (f : Str) (obj : PyObj) : Str → Str → Prop
  | pkl : ModelText L f obj (f ++ cs!".pkl") (L.dump obj)
  | weighted {a b : ℝ} {i : Option (List Str)} : obj = .composer ⟨.weighted a b, i⟩ →
      ModelText L f obj (f ++ cs!".params") (paramText L.io cs!"alpha" a ++ ['\n'] ++ paramText L.io cs!"beta" b)
  | dilation {l : ℝ} {i : Option (List Str)} : obj = .composer ⟨.dilation l, i⟩ →
      ModelText L f obj (f ++ cs!".params") (paramText L.io cs!"lambda" l)
  | full {a b : TMat ℝ} {ic : Bool} {l : Option Learner} {i : Option (List Str)} :
      obj = .composer ⟨.fullAdditive (some a) (some b) ic l, i⟩ →
      ModelText L f obj (f ++ cs!".params") (fullAdditiveText L a b ic)
  | lexical {m : LexFun Str} {s : Space Str} {e c : Str} : obj = .lexfun m → m.functions = some s → SpaceText L s e c →
      ModelText L f obj (f ++ cs!".params" ++ ['.'] ++ e) c

theorem exportModelR_safe {L : Lib} {fs0 fs : Fs} {C : List Str → Str → Prop} {O : List Str → Prop} {m : PyObj} {f : Str}
    (hn : NoneBroken fs0 fs C) (hC : ∀ p c, ModelText L f m p c → C (fs0.resolve p) c)
    (hO : ∀ p ∈ paramFiles f, O (fs0.resolve p)) : CrashSafe fs0 C O (exportModelR L fs m (f ++ cs!".params")) := by
  have hp : O (fs0.resolve (f ++ cs!".params")) := hO _ (by simp [paramFiles])
  unfold exportModelR
  split
  · exact .fail hn
  · exact .andThen (.createParentR hn) (fun _ _ h => .writeR h hp (fun c hc => by cases hc; exact hC _ _ (.weighted rfl)))
  · exact .andThen (.createParentR hn) (fun _ _ h => .writeR h hp (fun c hc => by cases hc; exact hC _ _ (.dilation rfl)))
  · exact .andThen (.createParentR hn) (fun _ _ h => .writeR h hp (fun c hc => by cases hc; exact hC _ _ (.full rfl)))
  · exact .andThen (.createParentR hn) (fun _ _ h => .fail h)
  · refine .andThen (.createParentR hn) (fun _ _ h => ?_)
    rename_i m' _ _
    split
    · exact .fail h
    · rename_i s hs
      refine .exportR h ?_ ?_
      · rintro n ⟨e, he, rfl⟩
        exact hO _ (by simp only [paramFiles, List.mem_cons, List.mem_map]; exact Or.inr ⟨e, he, rfl⟩)
      · rintro n c ⟨e, rfl, he⟩
        exact hC _ _ (.lexical rfl hs he)
  · exact .fail hn

/-- **C90** The same for `train_composition.py`. -/
theorem C90_train_composition {L : Lib} {fs g : Fs} {inFile base outDir model phraseFile : Str} {argFiles : List Str}
    {regression : Option Str} {cv ic ex : Bool} {param : ParamVal} {range : Option (List ℝ)} (hb : IsBase inFile base)
    (h : (trainModelR L fs inFile outDir model argFiles phraseFile regression cv ic param range ex).seen g) :
    OneBroken fs g
      (fun n c => ∃ first args phrase txt data obj p, ArgsFrom L fs argFiles first args ∧ HoldsSpace L fs phraseFile phrase ∧
        fs.read inFile = .ok txt ∧ TriplesOf txt data ∧
        Trained L.env (DocLearner regression cv ic param.number range) first args phrase data model obj ∧
        ModelText L (trainedFile outDir model base) obj p c ∧ n = fs.resolve p)
      (fun n => ∃ p ∈ (trainedFile outDir model base ++ cs!".pkl") :: paramFiles (trainedFile outDir model base),
        n = fs.resolve p) := by
  unfold trainModelR at h
  split at h
  · obtain rfl := h
    exact (NoneBroken.refl _).one
  · rename_i f gs
    simp only [trainedFile_eq hb] at h
    refine CrashSafe.seen (CrashSafe.compute (NoneBroken.refl fs) (fun arg harg => ?_)) g h
    refine .compute (NoneBroken.refl fs) (fun arg2 harg2 => .compute (NoneBroken.refl fs) (fun phrase hph =>
      .compute (NoneBroken.refl fs) (fun obj hobj => ?_)))
    obtain ⟨txt, data, h5, h6, h7⟩ := trainObj_ok hobj
    have hargs := loadSecond_args harg harg2
    have hC : ∀ p c, ModelText L (trainedFile outDir model base) obj p c → ∃ first args phrase txt data obj p',
        ArgsFrom L fs (f :: gs) first args ∧ HoldsSpace L fs phraseFile phrase ∧
        fs.read inFile = .ok txt ∧ TriplesOf txt data ∧
        Trained L.env (DocLearner regression cv ic param.number range) first args phrase data model obj ∧
        ModelText L (trainedFile outDir model base) obj p' c ∧ fs.resolve p = fs.resolve p' :=
      fun p c hp => ⟨arg, _, phrase, txt, data, obj, p, hargs, loadSpace_ok.1 hph, h5, h6, h7, hp, rfl⟩
    refine .andThen (.saveR (NoneBroken.refl fs) ⟨_, by simp, rfl⟩ (hC _ _ .pkl)) (fun fs1 _ h1 => ?_)
    split
    · exact exportModelR_safe h1 hC (fun p hp => ⟨p, by simp [hp], rfl⟩)
    · exact .done h1

/-- **C90** The same for `apply_composition.py`. -/
theorem C90_apply_composition {L : Lib} {fs g : Fs} {inFile base outDir : Str} {model trained : Option Str}
    {argFiles : List Str} {alpha beta lam : Option ℝ} {outFormat : Option Str} (hb : IsBase inFile base)
    (h : (applyModelR L fs inFile outDir model trained argFiles alpha beta lam outFormat).seen g) :
    OneBroken fs g
      (fun n c => ∃ m cls first args txt data res, SelectedModel L fs alpha beta lam model trained m ∧ ClassOf m cls ∧
        ArgsFrom L fs argFiles first args ∧ fs.read inFile = .ok txt ∧ TriplesOf txt data ∧
        ComposedBy first args data res m ∧ CompleteFile L fs (composedFile outDir cls base) res n c)
      (fun n => ∃ m cls, ClassOf m cls ∧ FileOf fs (composedFile outDir cls base) n) := by
  refine CrashSafe.seen (CrashSafe.compute (NoneBroken.refl fs) (fun m hm => ?_)) g h
  split
  · exact .fail (NoneBroken.refl fs)
  · rename_i f gs
    refine .compute (NoneBroken.refl fs) (fun arg harg => .compute (NoneBroken.refl fs) (fun arg2 harg2 =>
      .compute (NoneBroken.refl fs) (fun content hcont => .compute (NoneBroken.refl fs) (fun data hdata =>
        .compute (NoneBroken.refl fs) (fun s hs => ?_)))))
    have hsel := modelObj_ok.1 hm
    have hcls := classOf_total (selected_kind hsel)
    have hfile : outDir ++ cs!"/COMPOSED_SS" ++ ['.'] ++ className m ++ ['.'] ++ lastComp inFile =
        composedFile outDir (className m) base := by
      rw [lastComp_of_base hb]; simp [composedFile]
    rw [hfile]
    exact .printR (NoneBroken.refl fs) (fun n hn => ⟨m, _, hcls, hn⟩) (fun n c hn =>
      ⟨m, _, arg, _, content, data, s, hsel, hcls, loadSecond_args harg harg2, hcont, readTriples_ok.1 hdata,
        composeObj_ok.1 hs, hn⟩)

end
end Dissect
