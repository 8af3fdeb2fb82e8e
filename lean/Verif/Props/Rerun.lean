import Verif.Lemmas.RerunUni
import Verif.Props.Crash

/-!
# C92: an interrupted script can be run again

`Restartable run fs` (`Spec/Rerun.lean`): if the run on `fs` succeeds, then a run started on any disk that an interruption
may leave behind succeeds as well and ends with the same disk.
-/

namespace Dissect
noncomputable section
variable {fs0 : Fs} {O : List Str → Prop}

/-! ### The computations see the inputs only -/

theorem Near.load {h : Fs} (hn : Near fs0 O h) {L : Lib} {f : Str} (hf : Apart fs0 O f) :
    loadSpace L h f = loadSpace L fs0 f := by
  unfold loadSpace Fs.load
  rw [hn.read (fun ho => hf _ ho List.prefix_rfl)]

theorem Near.loadSecond {h : Fs} (hn : Near fs0 O h) {L : Lib} {files : List Str} (hf : ∀ f ∈ files, Apart fs0 O f) :
    loadSecond L h files = loadSecond L fs0 files := by
  unfold Dissect.loadSecond
  split
  · rw [hn.load (hf _ (by simp))]
  · rfl

theorem Near.modelObj {h : Fs} (hn : Near fs0 O h) {L : Lib} {model trained : Option Str} {a b l : Option ℝ}
    (hf : ∀ f, trained = some f → Apart fs0 O f) : modelObj L h model trained a b l = modelObj L fs0 model trained a b l := by
  unfold Dissect.modelObj
  split
  · rfl
  · unfold loadModel Fs.load
    rw [hn.read (fun ho => hf _ rfl _ ho List.prefix_rfl)]
  · rfl

theorem Near.readInput {h : Fs} (hn : Near fs0 O h) {L : Lib} {pre fmt : Str} {gz : Bool}
    (hf : ∀ f ∈ inputFiles pre fmt, Apart fs0 O f) : readInput L h pre fmt gz = readInput L fs0 pre fmt gz := by
  have h1 := hf (pre ++ ['.'] ++ fmt) (by simp [inputFiles])
  have h2 := hf (pre ++ ['.'] ++ fmt ++ cs!".gz") (by simp [inputFiles])
  have h3 := hf (pre ++ cs!".rows") (by simp [inputFiles])
  have h4 := hf (pre ++ cs!".cols") (by simp [inputFiles])
  have rd : ∀ {f}, Apart fs0 O f → h.read f = fs0.read f := fun hf => hn.read (fun ho => hf _ ho List.prefix_rfl)
  have e3 : fileIfExists h (pre ++ cs!".rows") = fileIfExists fs0 (pre ++ cs!".rows") := by
    unfold fileIfExists; rw [hn.exists_ h3]
  have e4 : fileIfExists h (pre ++ cs!".cols") = fileIfExists fs0 (pre ++ cs!".cols") := by
    unfold fileIfExists; rw [hn.exists_ h4]
  have e5 : h.read (if gz = true then pre ++ ['.'] ++ fmt ++ cs!".gz" else pre ++ ['.'] ++ fmt) =
      fs0.read (if gz = true then pre ++ ['.'] ++ fmt ++ cs!".gz" else pre ++ ['.'] ++ fmt) := by
    split
    · exact rd h2
    · exact rd h1
  have e6 : buildRows h (fileIfExists fs0 (pre ++ cs!".rows")) = buildRows fs0 (fileIfExists fs0 (pre ++ cs!".rows")) := by
    unfold fileIfExists
    split
    · simp only [buildRows, rd h3]
    · rfl
  have e7 : buildCols h fmt (fileIfExists fs0 (pre ++ cs!".cols")) =
      buildCols fs0 fmt (fileIfExists fs0 (pre ++ cs!".cols")) := by
    unfold fileIfExists
    split
    · simp only [buildCols, rd h4]
    · rfl
  unfold Dissect.readInput
  simp only [hn.load h1, e3, e4]
  unfold Space.build
  simp only [buildWith, e6, e7, rowsOrData, buildMat, e5]

/-! ### `build_core_space.py` -/

theorem buildSpacesR_uni {L : Lib} {pre base fmt outDir : Str} {outFormat : Option Str}
    {ws ss rs ns : List (Option Str)} {gz : Bool} (hb : IsBase pre base)
    (hin : ∀ f ∈ inputFiles pre fmt, Apart fs0 O f) (hO : ∀ n, CoreOutput fs0 base outDir ws ss rs ns n → O n) :
    Uni fs0 O (fun h => buildSpacesR L h pre fmt outDir outFormat ws ss rs ns gz) := by
  refine .compute (fun h hn => hn.readInput hin) (fun input _ => ?_)
  refine .forR ws 0 (fun i w hw => .compute (fun _ _ => rfl) (fun wS _ => ?_))
  refine .forR ss 0 (fun j s hs => .compute (fun _ _ => rfl) (fun sS _ => ?_))
  refine .forR rs 0 (fun k r hr => .compute (fun _ _ => rfl) (fun rS _ => ?_))
  refine .forR ns 0 (fun _ n hn => .compute (fun _ _ => rfl) (fun nS _ => ?_))
  have hf : spaceFile outDir [some (coreDescr pre), w, s, r, n] = coreFile outDir base ⟨w, s, r, n⟩ :=
    choiceFile_eq hb ⟨w, s, r, n⟩
  rw [hf]
  exact .printR (fun m hm => hO m ⟨⟨w, s, r, n⟩, ⟨hw, hs, hr, hn⟩, hm⟩)

/-- **C92** `build_spaces` can be interrupted at any moment and started again, provided no output is an input. -/
theorem C92_build_core_space {L : Lib} {fs : Fs} {pre base fmt outDir : Str} {outFormat : Option Str}
    {ws ss rs ns : List (Option Str)} {gz : Bool} (hok : fs.Ok) (hb : IsBase pre base)
    (hin : ∀ f ∈ inputFiles pre fmt, Apart fs (CoreOutput fs base outDir ws ss rs ns) f) :
    Restartable (fun h => buildSpacesR L h pre fmt outDir outFormat ws ss rs ns gz) fs :=
  (buildSpacesR_uni hb hin (fun _ h => h)).restartable hok

/-! ### `build_peripheral_space.py` -/

theorem transformRawR_uni {L : Lib} {raw : Space Str} {pre base outDir core : Str} {outFormat : Option Str}
    (hb : IsBase pre base) (hc : Apart fs0 O core) (hO : ∀ n, PeriphOutput fs0 base outDir core n → O n) :
    Uni fs0 O (fun h => transformRawR L raw pre outDir outFormat core h) := by
  refine .compute (fun h hn => hn.load hc) (fun c _ => .compute (fun _ _ => rfl) (fun p _ => ?_))
  rw [periphFile_eq hb (stem_spec core)]
  exact .printR (fun m hm => hO m ⟨_, stem_spec _, hm⟩)

/-- **C92** The same for `build_peripheral_space.py` with one core space. -/
theorem C92_build_peripheral_space {L : Lib} {fs : Fs} {pre base fmt outDir core : Str} {outFormat : Option Str} {gz : Bool}
    (hok : fs.Ok) (hb : IsBase pre base)
    (hin : ∀ f ∈ core :: inputFiles pre fmt, Apart fs (PeriphOutput fs base outDir core) f) :
    Restartable (fun h => buildPeriphR L h pre fmt outDir outFormat core gz) fs :=
  Uni.restartable (.compute (fun _ hn => hn.readInput (fun f hf => hin f (List.mem_cons_of_mem _ hf)))
    (fun _ _ => transformRawR_uni hb (hin core List.mem_cons_self) (fun _ h => h))) hok

theorem Uni.ite {ε : Type} {c : Fs → Bool} {r k : Fs → Run ε} (hc : ∀ h, Near fs0 O h → c h = c fs0)
    (hr : c fs0 = true → Uni fs0 O r) (hk : Uni fs0 O k) : Uni fs0 O (fun h => if c h = true then r h else k h) := by
  intro h0 h1 hn hok h
  by_cases ht : c fs0 = true
  · obtain ⟨os, o1, o2⟩ := hr ht h0 h1 hn hok (by
      have := h
      simp only [hc h0 hn, ht, if_true] at this
      exact this)
    refine ⟨os, o1, ⟨fun h a b g => ?_, fun h a b g hg => ?_⟩⟩
    · simp only [hc h a, ht, if_true]; exact o2.out h a b g
    · simp only [hc h a, ht, if_true] at hg; exact o2.seen h a b g hg
  · obtain ⟨os, o1, o2⟩ := hk h0 h1 hn hok (by
      have := h
      simp only [hc h0 hn] at this
      rw [if_neg ht] at this
      exact this)
    refine ⟨os, o1, ⟨fun h a b g => ?_, fun h a b g hg => ?_⟩⟩
    · simp only [hc h a]; rw [if_neg ht]; exact o2.out h a b g
    · simp only [hc h a] at hg; rw [if_neg ht] at hg; exact o2.seen h a b g hg

/-- What lies in a directory that contains no output is no output. -/
theorem Apart.below {d : Str} (h : Apart fs0 O d) (hd : d ≠ []) (nm : Str) : Apart fs0 O (withSlash d ++ nm) := by
  intro n hn hp
  refine h n hn (List.IsPrefix.trans ?_ hp)
  rw [withSlash_slash fs0 d nm hd]
  have ha : isAbs (d ++ '/' :: nm) = isAbs d := by
    cases d with
    | nil => exact absurd rfl hd
    | cons c d => rfl
  unfold Fs.resolve
  rw [ha, pathComps_slash]
  split
  · exact List.prefix_append _ _
  · rw [← List.append_assoc]; exact List.prefix_append _ _

theorem buildPeriphBatchR_uni {L : Lib} {pre base fmt outDir inDir filter : Str} {outFormat : Option Str} {gz : Bool}
    (hb : IsBase pre base) (hin : ∀ f ∈ inDir :: inputFiles pre fmt, Apart fs0 O f)
    (hO : ∀ n core, PeriphOutput fs0 base outDir core n → O n) :
    Uni fs0 O (fun h => buildPeriphBatchR L h pre fmt outDir outFormat inDir filter gz) := by
  have hd := hin inDir List.mem_cons_self
  refine .compute (fun _ hn => hn.readInput (fun f hf => hin f (List.mem_cons_of_mem _ hf))) (fun raw _ => ?_)
  refine .ite (fun h hn => hn.exists_ hd) (fun he => ?_) .fail
  have hne := (Fs.exists_of he).1
  have hs := hd.below hne []
  rw [List.append_nil] at hs
  refine .compute (fun h hn => hn.listdir hs) (fun names _ => .forR _ 0 (fun _ nm _ => ?_))
  exact transformRawR_uni hb (hd.below hne nm) (fun n h => hO n _ h)

/-- **C92** The same in batch mode: no output is an input or lies in the directory of the core spaces. -/
theorem C92_build_peripheral_space_batch {L : Lib} {fs : Fs} {pre base fmt outDir inDir filter : Str}
    {outFormat : Option Str} {gz : Bool} (hok : fs.Ok) (hb : IsBase pre base)
    (hin : ∀ f ∈ inDir :: inputFiles pre fmt, Apart fs (fun n => ∃ core, PeriphOutput fs base outDir core n) f) :
    Restartable (fun h => buildPeriphBatchR L h pre fmt outDir outFormat inDir filter gz) fs :=
  (buildPeriphBatchR_uni hb hin (fun _ core h => ⟨core, h⟩)).restartable hok

/-! ### `compute_similarities.py` and `compute_neighbours.py` -/

/-- The files `compute_similarities.py` may write for the spaces described by `d`. -/
def SimsOutput (fs : Fs) (base outDir d : Str) (measures : List Str) (n : List Str) : Prop :=
  ∃ m sim, m ∈ measures ∧ (m, sim) ∈ measureTable ∧ n = fs.resolve (simsFile outDir base d m)

theorem Uni.trunc {p : Str} {α : Type} {x : Fs → Py α} {txt : α → Py Str} (hp : O (fs0.resolve p))
    (hx : ∀ h, Near fs0 O h → x h = x fs0) : Uni fs0 O (fun h => (createParentR h p).andThen (fun fs1 =>
      .compute fs1 (x fs1) (fun _ => (writeR fs1 p (.ok [])).andThen (fun fs2 =>
        .compute fs2 (x fs2) (fun a => writeR fs2 p (txt a)))))) :=
  .andThen (.parent hp) (.compute (k := fun _ fs1 => (writeR fs1 p (.ok [])).andThen (fun fs2 =>
        .compute fs2 (x fs2) (fun a => writeR fs2 p (txt a)))) hx (fun _ _ =>
    .andThen (.write hp (fun _ _ => rfl)) (.compute (k := fun a fs2 => writeR fs2 p (txt a)) hx
      (fun _ _ => .write hp (fun _ _ => rfl)))))

theorem computeSimR_uni {L : Lib} {inFile base outDir d : Str} {columns measures files : List Str}
    (hb : IsBase inFile base) (hnm : SpacesName files d) (hin : ∀ f ∈ inFile :: files, Apart fs0 O f)
    (hO : ∀ n, SimsOutput fs0 base outDir d measures n → O n) :
    Uni fs0 O (fun h => computeSimR L inFile columns outDir measures files h) := by
  refine .compute (fun _ _ => rfl) (fun c _ => ?_)
  split
  · exact .fail
  · rename_i f gs
    have h3 := (spacesDescr_eq hnm).1
    have hf : ∀ x ∈ f :: gs, Apart fs0 O x := fun x hx => hin x (List.mem_cons_of_mem _ hx)
    have ld : ∀ h, Near fs0 O h → loadSpace L h f = loadSpace L fs0 f := fun h hn => hn.load (hf f List.mem_cons_self)
    have hj : ∀ m, outDir ++ ['/'] ++ joinStr ['.'] [cs!"SIMS", base, d] ++ ['.'] ++ m = simsFile outDir base d m := by
      intro m; simp [joinStr, simsFile]
    have body : ∀ s, Uni fs0 O (fun fs => .compute fs (loadSecond L fs (f :: gs)) (fun space2 =>
        forR (fun _ m fs => simMeasureR L inFile c.1 c.2 outDir
          (joinStr ['.'] [cs!"SIMS", lastComp inFile, spacesDescr (f :: gs)]) s space2 m fs) 0 measures fs)) := by
      intro s
      refine .compute (fun _ hn => hn.loadSecond hf) (fun s2 _ => .forR measures 0 (fun _ m hm => ?_))
      unfold simMeasureR
      split
      · exact .done
      · rename_i sim hsim
        simp only [h3, lastComp_of_base hb, hj]
        exact .trunc (hO _ ⟨m, sim, hm, simOf_eq.1 hsim, rfl⟩)
          (fun h hn => hn.read (fun ho => hin inFile List.mem_cons_self _ ho List.prefix_rfl))
    intro h0 h1 hn hok h
    cases hl : loadSpace L fs0 f with
    | ok s =>
      simp only [ld h0 hn, hl] at h
      obtain ⟨os, o1, o2⟩ := body s h0 h1 hn hok h
      refine ⟨os, o1, ⟨fun h a b g => ?_, fun h a b g hg => ?_⟩⟩
      · simp only [ld h a, hl]; exact o2.out h a b g
      · simp only [ld h a, hl] at hg; exact o2.seen h a b g hg
    | error e =>
      by_cases ht : e = .typeError
      · subst ht
        obtain ⟨os, o1, o2⟩ := Uni.done (ε := PyErr) h0 h0 hn hok rfl
        refine ⟨os, o1, ⟨fun h a b g => ?_, fun h a b g hg => ?_⟩⟩
        · simp only [ld h a, hl]; exact o2.out h a b g
        · simp only [ld h a, hl] at hg; exact o2.seen h a b g hg
      · simp only [ld h0 hn, hl] at h
        cases h

/-- **C92** The same for `compute_similarities.py`. -/
theorem C92_compute_similarities {L : Lib} {fs : Fs} {inFile base outDir d : Str} {columns measures files : List Str}
    (hok : fs.Ok) (hb : IsBase inFile base) (hnm : SpacesName files d)
    (hin : ∀ f ∈ inFile :: files, Apart fs (SimsOutput fs base outDir d measures) f) :
    Restartable (fun h => computeSimR L inFile columns outDir measures files h) fs :=
  (computeSimR_uni hb hnm hin (fun _ h => h)).restartable hok

theorem computeSimBatchR_uni {L : Lib} {inFile base outDir inDir : Str} {columns measures : List Str}
    (hb : IsBase inFile base) (hin : ∀ f ∈ [inFile, inDir], Apart fs0 O f)
    (hO : ∀ n d, SimsOutput fs0 base outDir d measures n → O n) :
    Uni fs0 O (fun h => computeSimBatchR L inFile columns outDir measures inDir h) := by
  have hd := hin inDir (by simp)
  refine .ite (fun h hn => hn.exists_ hd) (fun he => ?_) .fail
  have hne := (Fs.exists_of he).1
  have hs := hd.below hne []
  rw [List.append_nil] at hs
  refine .compute (fun h hn => hn.listdir hs) (fun names _ => .forR _ 0 (fun _ nm _ => ?_))
  refine computeSimR_uni hb (.one (by simp) (stem_spec _)) ?_ (fun n h => hO n _ h)
  intro f hf
  rcases List.mem_cons.1 hf with rfl | hf
  · exact hin f (by simp)
  · rw [List.mem_singleton.1 hf]; exact hd.below hne nm

/-- **C92** The same in batch mode: no output is an input or lies in the directory of the spaces. -/
theorem C92_compute_similarities_batch {L : Lib} {fs : Fs} {inFile base outDir inDir : Str} {columns measures : List Str}
    (hok : fs.Ok) (hb : IsBase inFile base)
    (hin : ∀ f ∈ [inFile, inDir], Apart fs (fun n => ∃ d, SimsOutput fs base outDir d measures n) f) :
    Restartable (fun h => computeSimBatchR L inFile columns outDir measures inDir h) fs :=
  (computeSimBatchR_uni hb hin (fun _ d h => ⟨d, h⟩)).restartable hok

theorem computeNeighboursR_uni {L : Lib} {inFile base outDir d m : Str} {n : ℤ} {files : List Str}
    (hb : IsBase inFile base) (hnm : SpacesName files d) (hin : ∀ f ∈ inFile :: files, Apart fs0 O f)
    (hO : O (fs0.resolve (neighboursFile outDir base d m))) :
    Uni fs0 O (fun h => computeNeighboursR L inFile n outDir m files h) := by
  have h3 := (spacesDescr_eq hnm).1
  have hj : outDir ++ ['/'] ++ joinStr ['.'] [cs!"NEIGHBOURS", base, d] ++ ['.'] ++ m = neighboursFile outDir base d m := by
    simp [joinStr, neighboursFile]
  unfold computeNeighboursR
  split
  · exact .fail
  · split
    · exact .fail
    · rename_i f gs
      have hf : ∀ x ∈ f :: gs, Apart fs0 O x := fun x hx => hin x (List.mem_cons_of_mem _ hx)
      simp only [h3, lastComp_of_base hb, hj]
      refine .compute (fun _ hn => hn.load (hf f List.mem_cons_self)) (fun s _ =>
        .compute (fun _ hn => hn.loadSecond hf) (fun s2 _ => .andThen (.parent hO) ?_))
      refine .compute (fun h hn => hn.read (fun ho => hin inFile List.mem_cons_self _ ho List.prefix_rfl))
        (fun content _ => .compute (fun _ _ => rfl) (fun ws _ => ?_))
      exact .andThen (.write hO (fun _ _ => rfl)) (.write hO (fun _ _ => rfl))

/-- **C92** The same for `compute_neighbours.py`. -/
theorem C92_compute_neighbours {L : Lib} {fs : Fs} {inFile base outDir d m : Str} {n : ℤ} {files : List Str}
    (hok : fs.Ok) (hb : IsBase inFile base) (hnm : SpacesName files d)
    (hin : ∀ f ∈ inFile :: files, Apart fs (fun x => x = fs.resolve (neighboursFile outDir base d m)) f) :
    Restartable (fun h => computeNeighboursR L inFile n outDir m files h) fs :=
  (computeNeighboursR_uni hb hnm hin rfl).restartable hok

/-! ### `train_composition.py` and `apply_composition.py` -/

theorem exportModelR_uni {L : Lib} {m : PyObj} {f : Str} (hO : ∀ p ∈ paramFiles f, O (fs0.resolve p)) :
    Uni fs0 O (fun h => exportModelR L h m (f ++ cs!".params")) := by
  have hp : O (fs0.resolve (f ++ cs!".params")) := hO _ (by simp [paramFiles])
  unfold exportModelR
  split
  · exact .fail
  · exact .andThen (.parent hp) (.write hp (fun _ _ => rfl))
  · exact .andThen (.parent hp) (.write hp (fun _ _ => rfl))
  · exact .andThen (.parent hp) (.write hp (fun _ _ => rfl))
  · exact .andThen (.parent hp) .fail
  · refine .andThen (.parent hp) ?_
    rename_i m' _
    split
    · exact .fail
    · refine .exportR ?_
      rintro n ⟨e, he, rfl⟩
      exact hO _ (by simp only [paramFiles, List.mem_cons, List.mem_map]; exact Or.inr ⟨e, he, rfl⟩)
  · exact .fail

/-- The files `train_composition.py` may write. -/
def TrainOutput (fs : Fs) (f : Str) (n : List Str) : Prop := ∃ p ∈ (f ++ cs!".pkl") :: paramFiles f, n = fs.resolve p

theorem trainModelR_uni {L : Lib} {inFile base outDir model phraseFile : Str} {argFiles : List Str}
    {regression : Option Str} {cv ic ex : Bool} {param : ParamVal} {range : Option (List ℝ)}
    (hb : IsBase inFile base) (hin : ∀ f ∈ inFile :: phraseFile :: argFiles, Apart fs0 O f)
    (hO : ∀ n, TrainOutput fs0 (trainedFile outDir model base) n → O n) :
    Uni fs0 O (fun h => trainModelR L h inFile outDir model argFiles phraseFile regression cv ic param range ex) := by
  unfold trainModelR
  split
  · exact .fail
  · rename_i f gs
    have hf : ∀ x ∈ f :: gs, Apart fs0 O x :=
      fun x hx => hin x (List.mem_cons_of_mem _ (List.mem_cons_of_mem _ hx))
    simp only [trainedFile_eq hb]
    refine .compute (fun _ hn => hn.load (hf f List.mem_cons_self)) (fun arg _ =>
      .compute (fun _ hn => hn.loadSecond hf) (fun arg2 _ => .compute (fun _ hn => hn.load (hin _ (by simp))) (fun phrase _ =>
        .compute (fun _ hn => ?_) (fun obj _ => ?_))))
    · rw [hn.read (fun ho => hin inFile List.mem_cons_self _ ho List.prefix_rfl)]
    · refine .andThen (.save (hO _ ⟨_, List.mem_cons_self, rfl⟩)) ?_
      split
      · exact exportModelR_uni (fun p hp => hO _ ⟨p, List.mem_cons_of_mem _ hp, rfl⟩)
      · exact .done

/-- **C92** The same for `train_composition.py`. -/
theorem C92_train_composition {L : Lib} {fs : Fs} {inFile base outDir model phraseFile : Str} {argFiles : List Str}
    {regression : Option Str} {cv ic ex : Bool} {param : ParamVal} {range : Option (List ℝ)} (hok : fs.Ok)
    (hb : IsBase inFile base)
    (hin : ∀ f ∈ inFile :: phraseFile :: argFiles, Apart fs (TrainOutput fs (trainedFile outDir model base)) f) :
    Restartable (fun h => trainModelR L h inFile outDir model argFiles phraseFile regression cv ic param range ex) fs :=
  (trainModelR_uni hb hin (fun _ h => h)).restartable hok

/-- The files `apply_composition.py` may write. -/
def ApplyOutput (fs : Fs) (outDir base : Str) (n : List Str) : Prop :=
  ∃ m cls, ClassOf m cls ∧ FileOf fs (composedFile outDir cls base) n

theorem applyModelR_uni {L : Lib} {inFile base outDir : Str} {model trained : Option Str}
    {argFiles : List Str} {alpha beta lam : Option ℝ} {outFormat : Option Str} (hb : IsBase inFile base)
    (hin : ∀ f ∈ inFile :: (trained.toList ++ argFiles), Apart fs0 O f) (hO : ∀ n, ApplyOutput fs0 outDir base n → O n) :
    Uni fs0 O (fun h => applyModelR L h inFile outDir model trained argFiles alpha beta lam outFormat) := by
  refine .compute (fun _ hn => hn.modelObj (fun f hf => hin f (by simp [hf]))) (fun m hm => ?_)
  split
  · exact .fail
  · rename_i f gs
    have hf : ∀ x ∈ f :: gs, Apart fs0 O x := fun x hx => hin x (List.mem_cons_of_mem _ (List.mem_append_right _ hx))
    refine .compute (fun _ hn => hn.load (hf f List.mem_cons_self)) (fun arg _ =>
      .compute (fun _ hn => hn.loadSecond hf) (fun arg2 _ => .compute
        (fun _ hn => hn.read (fun ho => hin inFile List.mem_cons_self _ ho List.prefix_rfl)) (fun content _ =>
        .compute (fun _ _ => rfl) (fun data _ => .compute (fun _ _ => rfl) (fun s _ => ?_)))))
    have hcls := classOf_total (selected_kind (modelObj_ok.1 hm))
    have hfile : outDir ++ cs!"/COMPOSED_SS" ++ ['.'] ++ className m ++ ['.'] ++ lastComp inFile =
        composedFile outDir (className m) base := by
      rw [lastComp_of_base hb]; simp [composedFile]
    rw [hfile]
    exact .printR (fun n hn => hO n ⟨m, _, hcls, hn⟩)

/-- **C92** The same for `apply_composition.py`. -/
theorem C92_apply_composition {L : Lib} {fs : Fs} {inFile base outDir : Str} {model trained : Option Str}
    {argFiles : List Str} {alpha beta lam : Option ℝ} {outFormat : Option Str} (hok : fs.Ok) (hb : IsBase inFile base)
    (hin : ∀ f ∈ inFile :: (trained.toList ++ argFiles), Apart fs (ApplyOutput fs outDir base) f) :
    Restartable (fun h => applyModelR L h inFile outDir model trained argFiles alpha beta lam outFormat) fs :=
  (applyModelR_uni hb hin (fun _ h => h)).restartable hok

/-! ### The `main` functions -/

/-- The log file, if one is asked for, and the outputs `O`. -/
def WithLog (fs : Fs) (log : Option Str) (O : List Str → Prop) (n : List Str) : Prop :=
  O n ∨ ∃ f, log = some f ∧ n = fs.resolve f

/-- The command line names the configuration file `f`. -/
def NamesConfig (c : Cli) (argv : List Str) (f : Str) : Prop := ∃ opts, getopt c.short c.longs argv = some (opts, [f])

theorem Near.parseArgs {h : Fs} (hn : Near fs0 O h) {c : Cli} {parse : Str → Py Config} {argv : List Str}
    (hf : ∀ f, NamesConfig c argv f → Apart fs0 O f) : c.parseArgs parse h argv = c.parseArgs parse fs0 argv := by
  unfold Cli.parseArgs
  split
  · rfl
  · rename_i opts rest heq
    congr 1
    unfold Cli.initial
    split
    · rw [hn.read (fun ho => hf _ ⟨opts, heq⟩ _ ho List.prefix_rfl)]
    · rfl

theorem Uni.log {log : Option Str} {P : List Str → Prop} {k : Fs → Run MainErr} (hk : Uni fs0 (WithLog fs0 log P) k) :
    Uni fs0 (WithLog fs0 log P) (fun h => (configLoggingR h log).lift.andThen k) :=
  .andThen (.lift (.configLogging (fun f hf => Or.inr ⟨f, hf, rfl⟩))) hk

theorem Uni.step {α : Type} {x : Main α} {k : α → Fs → Run MainErr} (hk : ∀ a, x = .ok a → Uni fs0 O (k a)) :
    Uni fs0 O (fun h => Run.compute h x (fun a => k a h)) :=
  .compute (x := fun _ => x) (fun _ _ => rfl) hk

theorem Uni.needs {α : Type} {v : Option α} {k : α → Fs → Run MainErr} {a : α} (hv : v = some a) (hk : Uni fs0 O (k a)) :
    Uni fs0 O (fun h => Run.compute h (require v) (fun a => k a h)) :=
  .step (fun b hb => by
    subst hv
    injection hb with hb
    subst hb
    exact hk)

theorem Uni.args {L : Lib} {argv : List Str} {c : Cli} {st : Settings} {k : Settings → Fs → Run MainErr}
    (hst : c.parseArgs L.parseCfg fs0 argv = .ok st) (hf : ∀ f, NamesConfig c argv f → Apart fs0 O f)
    (hk : Uni fs0 O (k st)) : Uni fs0 O (fun h => Run.compute h (c.parseArgs L.parseCfg h argv) (fun st => k st h)) :=
  .compute (fun _ hn => hn.parseArgs hf) (fun st' h' => by
    rw [hst] at h'
    injection h' with h'
    subst h'
    exact hk)

/-- **C92** The whole of `build_core_space.py`: the process is killed at any moment and started again with the same
command line. The outputs are those determined by the options, and the log; neither an input nor the configuration file
is an output. (The text in the log is not modelled.) -/
theorem C92_main_core {L : Lib} {fs : Fs} {argv : List Str} {st : Settings} {pre base outDir fmt : Str} (hok : fs.Ok)
    (hst : cliCore.parseArgs L.parseCfg fs argv = .ok st) (hpre : (st cs!"in_file_prefix").asStr = some pre)
    (hb : IsBase pre base) (hout : (st cs!"out_dir").asStr = some outDir) (hfmt : (st cs!"in_format").asStr = some fmt)
    (hin : ∀ f, f ∈ inputFiles pre fmt ∨ NamesConfig cliCore argv f → Apart fs (WithLog fs (st cs!"log_file").asStr
      (CoreOutput fs base outDir (st cs!"weightings").asTokens (st cs!"selections").asTokens
        (st cs!"reductions").asTokens (st cs!"normalizations").asTokens)) f) :
    Restartable (fun h => mainCoreR L h argv) fs := by
  refine Uni.restartable (.args hst (fun f hf => hin f (Or.inr hf)) (.log ?_)) hok
  refine .needs hpre (.needs hout (.needs hfmt (.step (fun gz _ => .step (fun gz _ => .lift ?_)))))
  exact buildSpacesR_uni hb (fun f hf => hin f (Or.inl hf)) (fun n hn => Or.inl hn)

/-- **C92** The whole of `build_peripheral_space.py` with one core space. -/
theorem C92_main_peripheral {L : Lib} {fs : Fs} {argv : List Str} {st : Settings} {pre base outDir fmt core : Str} (hok : fs.Ok)
    (hst : cliPeriph.parseArgs L.parseCfg fs argv = .ok st) (hpre : (st cs!"in_file_prefix").asStr = some pre)
    (hb : IsBase pre base) (hout : (st cs!"out_dir").asStr = some outDir) (hfmt : (st cs!"in_format").asStr = some fmt)
    (hdir : (st cs!"core_in_dir").asStr = none) (hcore : (st cs!"core_space_file").asStr = some core)
    (hin : ∀ f, f ∈ core :: inputFiles pre fmt ∨ NamesConfig cliPeriph argv f →
      Apart fs (WithLog fs (st cs!"log_file").asStr (PeriphOutput fs base outDir core)) f) :
    Restartable (fun h => mainPeriphR L h argv) fs := by
  refine Uni.restartable (.args hst (fun f hf => hin f (Or.inr hf)) (.log ?_)) hok
  refine .needs hpre (.needs hout (.needs hfmt (.step (fun gz _ => .step (fun gz _ => ?_)))))
  rw [hdir]
  refine .needs hcore (.lift (.compute (fun _ hn => hn.readInput (fun f hf => hin f (Or.inl (List.mem_cons_of_mem _ hf))))
    (fun _ _ => ?_)))
  exact transformRawR_uni hb (hin core (Or.inl List.mem_cons_self)) (fun _ h => Or.inl h)

/-- **C92** The whole of `build_peripheral_space.py` in batch mode. -/
theorem C92_main_peripheral_batch {L : Lib} {fs : Fs} {argv : List Str} {st : Settings} {pre base outDir fmt inDir : Str}
    (hok : fs.Ok) (hst : cliPeriph.parseArgs L.parseCfg fs argv = .ok st)
    (hpre : (st cs!"in_file_prefix").asStr = some pre) (hb : IsBase pre base)
    (hout : (st cs!"out_dir").asStr = some outDir) (hfmt : (st cs!"in_format").asStr = some fmt)
    (hdir : (st cs!"core_in_dir").asStr = some inDir)
    (hin : ∀ f, f ∈ inDir :: inputFiles pre fmt ∨ NamesConfig cliPeriph argv f →
      Apart fs (WithLog fs (st cs!"log_file").asStr (fun n => ∃ core, PeriphOutput fs base outDir core n)) f) :
    Restartable (fun h => mainPeriphR L h argv) fs := by
  refine Uni.restartable (.args hst (fun f hf => hin f (Or.inr hf)) (.log ?_)) hok
  refine .needs hpre (.needs hout (.needs hfmt (.step (fun gz _ => .step (fun gz _ => ?_)))))
  rw [hdir]
  exact .lift (buildPeriphBatchR_uni hb (fun f hf => hin f (Or.inl hf)) (fun n core h => Or.inl ⟨core, h⟩))

/-- **C92** The whole of `compute_similarities.py`. -/
theorem C92_main_similarities {L : Lib} {fs : Fs} {argv : List Str} {st : Settings} {inFile base outDir d : Str}
    {measures spaces : List Str} (hok : fs.Ok) (hst : cliSims.parseArgs L.parseCfg fs argv = .ok st)
    (hfile : (st cs!"in_file").asStr = some inFile) (hb : IsBase inFile base)
    (hout : (st cs!"out_dir").asStr = some outDir) (hms : (st cs!"sim_measures").asList = some measures)
    (hdir : (st cs!"in_dir").asStr = none) (hsp : (st cs!"spaces").asList = some spaces) (hnm : SpacesName spaces d)
    (hin : ∀ f, f ∈ inFile :: spaces ∨ NamesConfig cliSims argv f →
      Apart fs (WithLog fs (st cs!"log_file").asStr (SimsOutput fs base outDir d measures)) f) :
    Restartable (fun h => mainSimsR L h argv) fs := by
  refine Uni.restartable (.args hst (fun f hf => hin f (Or.inr hf)) (.log ?_)) hok
  refine .needs hfile (.needs hout (.needs hms (.step (fun cols _ => ?_))))
  rw [hdir]
  exact .needs hsp (.lift (computeSimR_uni hb hnm (fun f hf => hin f (Or.inl hf)) (fun n hn => Or.inl hn)))

/-- **C92** The whole of `compute_similarities.py` in batch mode. -/
theorem C92_main_similarities_batch {L : Lib} {fs : Fs} {argv : List Str} {st : Settings} {inFile base outDir inDir : Str}
    {measures : List Str} (hok : fs.Ok) (hst : cliSims.parseArgs L.parseCfg fs argv = .ok st)
    (hfile : (st cs!"in_file").asStr = some inFile) (hb : IsBase inFile base)
    (hout : (st cs!"out_dir").asStr = some outDir) (hms : (st cs!"sim_measures").asList = some measures)
    (hdir : (st cs!"in_dir").asStr = some inDir)
    (hin : ∀ f, f ∈ [inFile, inDir] ∨ NamesConfig cliSims argv f →
      Apart fs (WithLog fs (st cs!"log_file").asStr (fun n => ∃ d, SimsOutput fs base outDir d measures n)) f) :
    Restartable (fun h => mainSimsR L h argv) fs := by
  refine Uni.restartable (.args hst (fun f hf => hin f (Or.inr hf)) (.log ?_)) hok
  refine .needs hfile (.needs hout (.needs hms (.step (fun cols _ => ?_))))
  rw [hdir]
  exact .lift (computeSimBatchR_uni hb (fun f hf => hin f (Or.inl hf)) (fun n d h => Or.inl ⟨d, h⟩))

/-- **C92** The whole of `compute_neighbours.py`. -/
theorem C92_main_neighbours {L : Lib} {fs : Fs} {argv : List Str} {st : Settings} {inFile base outDir d m : Str}
    {spaces : List Str} (hok : fs.Ok) (hst : cliNeigh.parseArgs L.parseCfg fs argv = .ok st)
    (hfile : (st cs!"in_file").asStr = some inFile) (hb : IsBase inFile base)
    (hout : (st cs!"out_dir").asStr = some outDir) (hms : (st cs!"sim_measure").asStr = some m)
    (hsp : (st cs!"spaces").asList = some spaces) (hnm : SpacesName spaces d)
    (hin : ∀ f, f ∈ inFile :: spaces ∨ NamesConfig cliNeigh argv f →
      Apart fs (WithLog fs (st cs!"log_file").asStr (fun x => x = fs.resolve (neighboursFile outDir base d m))) f) :
    Restartable (fun h => mainNeighR L h argv) fs := by
  refine Uni.restartable (.args hst (fun f hf => hin f (Or.inr hf)) (.log ?_)) hok
  refine .step (fun n _ => .needs hfile (.needs hout (.needs hms (.needs hsp (.lift ?_)))))
  exact computeNeighboursR_uni hb hnm (fun f hf => hin f (Or.inl hf)) (Or.inl rfl)

/-- **C92** The whole of `train_composition.py`. -/
theorem C92_main_train {L : Lib} {fs : Fs} {argv : List Str} {st : Settings} {inFile base outDir model phraseFile : Str}
    {argFiles : List Str} (hok : fs.Ok) (hst : cliTrain.parseArgs L.parseCfg fs argv = .ok st)
    (hfile : (st cs!"in_file").asStr = some inFile) (hb : IsBase inFile base)
    (hout : (st cs!"out_dir").asStr = some outDir) (hm : (st cs!"model").asStr = some model)
    (harg : (st cs!"arg_space").asList = some argFiles) (hph : (st cs!"phrase_space").asStr = some phraseFile)
    (hin : ∀ f, f ∈ inFile :: phraseFile :: argFiles ∨ NamesConfig cliTrain argv f →
      Apart fs (WithLog fs (st cs!"log_file").asStr (TrainOutput fs (trainedFile outDir model base))) f) :
    Restartable (fun h => mainTrainR L h argv) fs := by
  refine Uni.restartable (.args hst (fun f hf => hin f (Or.inr hf)) (.log ?_)) hok
  refine .needs hfile (.needs hout (.needs hm (.needs harg (.needs hph ?_))))
  refine .step (fun cv _ => .step (fun ic _ => .step (fun ic _ => .step (fun cv _ => .step (fun ex _ => .step (fun ex _ =>
    .step (fun pr _ => .step (fun _ _ => .lift ?_))))))))
  exact trainModelR_uni hb (fun f hf => hin f (Or.inl hf)) (fun n hn => Or.inl hn)

/-- **C92** The whole of `apply_composition.py`. -/
theorem C92_main_apply {L : Lib} {fs : Fs} {argv : List Str} {st : Settings} {inFile base outDir : Str}
    {argFiles : List Str} (hok : fs.Ok) (hst : cliApply.parseArgs L.parseCfg fs argv = .ok st)
    (hfile : (st cs!"in_file").asStr = some inFile) (hb : IsBase inFile base)
    (hout : (st cs!"out_dir").asStr = some outDir) (harg : (st cs!"arg_space").asList = some argFiles)
    (hin : ∀ f, f ∈ inFile :: ((st cs!"trained_model").asStr.toList ++ argFiles) ∨ NamesConfig cliApply argv f →
      Apart fs (WithLog fs (st cs!"log_file").asStr (ApplyOutput fs outDir base)) f) :
    Restartable (fun h => mainApplyR L h argv) fs := by
  refine Uni.restartable (.args hst (fun f hf => hin f (Or.inr hf)) (.log ?_)) hok
  refine .needs hfile (.needs hout (.step (fun _ _ => .needs harg (.step (fun a _ => .step (fun b _ => .step (fun l _ =>
    .lift ?_)))))))
  exact applyModelR_uni hb (fun f hf => hin f (Or.inl hf)) (fun n hn => Or.inl hn)

/-! ### The hypotheses can be met -/

/-- A run that is killed just after it has opened its output: the pickle is there and empty. -/
theorem ex_interrupted (L : Lib) (s : Space Str) (hu : L.undump cs!"S" = some (.space s)) :
    ∃ g, (buildSpacesR L exFs cs!"/data/in" cs!"pkl" cs!"/out/x" none [none] [none] [none] [none] false).seen g ∧
      g.read cs!"/out/x/CORE_SS.in.pkl" = .ok [] ∧ exFs.read cs!"/out/x/CORE_SS.in.pkl" = .error .ioError := by
  have hr : readInput L exFs cs!"/data/in" cs!"pkl" false = .ok s := readInput_ok.2 (.pickle ⟨cs!"S", rfl, hu⟩)
  obtain ⟨fs1, c1, c2, c3, c4, c5, c6, c7⟩ := Fs.createParent_ok exFs_ok (p := cs!"/out/x/CORE_SS.in.pkl") (by decide)
    (by rw [exFs_keys]; decide)
  obtain ⟨g, hg⟩ := Fs.write_succeeds (fs := fs1) (p := cs!"/out/x/CORE_SS.in.pkl") (c := []) (by decide) (by decide)
    (by
      rw [Fs.resolve_cwd c4]
      intro hd
      rcases c7 _ hd with h | h
      · revert h; decide
      · revert h; decide)
    (by rw [Fs.resolve_cwd c4]; exact c5)
  refine ⟨g, ?_, Fs.read_write_same hg, rfl⟩
  refine Or.inr ⟨s, hr, Or.inl (Or.inr ⟨s, rfl, ?_⟩)⟩
  refine Or.inl (Or.inr ⟨s, rfl, Or.inl (Or.inr ⟨s, rfl, Or.inl (Or.inr ⟨s, rfl, Or.inl ?_⟩)⟩)⟩)
  refine Or.inr ⟨fs1, ?_, Or.inr ⟨[], fun c _ => List.nil_prefix, hg⟩⟩
  rw [createParentR_out]
  exact c1

/-- C90 on this run: the empty pickle is the only file that is not as before and not complete. -/
example (L : Lib) (s : Space Str) (hu : L.undump cs!"S" = some (.space s)) :
    ∃ g, g.read cs!"/out/x/CORE_SS.in.pkl" = .ok [] ∧
      OneBroken exFs g (CoreComplete L exFs cs!"/data/in" cs!"in" cs!"pkl" cs!"/out/x" false [none] [none] [none] [none])
        (CoreOutput exFs cs!"in" cs!"/out/x" [none] [none] [none] [none]) := by
  obtain ⟨g, h1, h2, -⟩ := ex_interrupted L s hu
  exact ⟨g, h2, C90_build_core_space ⟨by decide, Or.inr ⟨cs!"/data", rfl⟩⟩ h1⟩

/-- C92 on this run: started again, it completes the pickle. -/
example (L : Lib) (s : Space Str) (hu : L.undump cs!"S" = some (.space s)) :
    ∃ g g', g.read cs!"/out/x/CORE_SS.in.pkl" = .ok [] ∧
      (buildSpacesR L g cs!"/data/in" cs!"pkl" cs!"/out/x" none [none] [none] [none] [none] false).out = .ok g' ∧
      g'.read cs!"/out/x/CORE_SS.in.pkl" = .ok (L.dump (.space s)) := by
  obtain ⟨g, h1, h2, -⟩ := ex_interrupted L s hu
  have hbase : IsBase cs!"/data/in" cs!"in" := ⟨by decide, Or.inr ⟨cs!"/data", rfl⟩⟩
  have hmem : ∀ ch, choices [none] [none] [none] [none] ch → ch = ⟨none, none, none, none⟩ := by
    rintro ⟨w, t, r, n⟩ ⟨hw, hs, hr, hn⟩
    simp only [List.mem_cons, List.not_mem_nil, or_false] at hw hs hr hn
    rw [hw, hs, hr, hn]
  have hin : ∀ f ∈ inputFiles cs!"/data/in" cs!"pkl",
      Apart exFs (CoreOutput exFs cs!"in" cs!"/out/x" [none] [none] [none] [none]) f := by
    rintro f hf n ⟨ch, hch, e, he, rfl⟩
    rw [hmem ch hch]
    revert f e
    decide
  have hread : readInput L exFs cs!"/data/in" cs!"pkl" false = .ok s := readInput_ok.2 (.pickle ⟨cs!"S", rfl, hu⟩)
  obtain ⟨fs1, w1, -, w3, -, -⟩ := OutDir.save (fs := exFs) (o := cs!"/out/x") (nm := cs!"CORE_SS.in.pkl")
    (c := L.dump (.space s)) ⟨exFs_ok, by rw [exFs_keys]; decide⟩ (by decide) (by decide) (by decide) (by decide)
  have hout : (buildSpacesR L exFs cs!"/data/in" cs!"pkl" cs!"/out/x" none [none] [none] [none] [none] false).out =
      .ok fs1 := by
    rw [buildSpacesR_out]
    have w1' : exFs.save (L.dump (.space s)) (spaceFile cs!"/out/x" [some (coreDescr cs!"/data/in"), none, none, none, none]
        ++ cs!".pkl") = .ok fs1 := w1
    simp only [buildSpaces, hread, selLoop, redLoop, normLoop, forFs, applyWeighting, applySelection, applyReduction,
      applyNormalization, printSpace, exportOpt, ok_bind, w1']
  obtain ⟨g', k1, k2⟩ := C92_build_core_space exFs_ok hbase hin fs1 g hout h1
  refine ⟨g, g', h2, k1, ?_⟩
  rw [read_congr k2.cwd (k2.files _)]
  exact (save_ok w1).2.1

end
end Dissect
