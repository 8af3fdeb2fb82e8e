import Verif.Model.Crash
import Verif.Lemmas.Jobs
import Verif.Lemmas.Main

/-! Lemmas: the runs end as the big-step model says. -/

namespace Dissect
noncomputable section

namespace Run
variable {ε : Type}

@[simp] theorem done_out (fs : Fs) : (done fs : Run ε).out = .ok fs := rfl
@[simp] theorem fail_out (fs : Fs) (e : ε) : (fail fs e : Run ε).out = .error e := rfl
@[simp] theorem andThen_out (r : Run ε) (k : Fs → Run ε) : (r.andThen k).out = r.out >>= fun fs' => (k fs').out := rfl
@[simp] theorem compute_out {α : Type} (fs : Fs) (x : Except ε α) (k : α → Run ε) :
    (compute fs x k).out = x >>= fun a => (k a).out := rfl
@[simp] theorem lift_out (r : Run PyErr) : r.lift.out = Main.lift r.out := rfl

end Run

theorem makedirsR_out (fs : Fs) (name : Str) : (makedirsR fs name).out = fs.makedirs name := by
  induction hn : name.length using Nat.strong_induction_on generalizing name with
  | _ n ih =>
    unfold makedirsR Fs.makedirs
    split
    · rename_i h
      rw [Run.andThen_out, ih _ (by rw [← hn]; exact Fs.makedirsSplit_lt name h.2.1) _ rfl]
      cases fs.makedirs (Fs.makedirsSplit name).1 with
      | error e => rfl
      | ok fs' =>
        simp only [ok_bind]
        split <;> rfl
    · rfl

theorem createParentR_out (fs : Fs) (f : Str) : (createParentR fs f).out = fs.createParentDirectories f := by
  unfold createParentR Fs.createParentDirectories
  split
  · rfl
  · exact makedirsR_out _ _

theorem writeR_out (fs : Fs) (p : Str) (txt : Py Str) : (writeR fs p txt).out = fs.writeText p txt := rfl

theorem writeR_ok {fs g : Fs} {p c : Str} : (writeR fs p (.ok c)).out = .ok g ↔ fs.write p c = .ok g := by
  rw [writeR_out, Fs.writeText_of_ok]

theorem saveR_out (fs : Fs) (c f : Str) : (saveR fs c f).out = fs.save c f := by
  unfold saveR Fs.save
  simp only [Run.andThen_out, createParentR_out, writeR_out, Fs.writeText_of_ok]

theorem configLoggingR_out (fs : Fs) (f : Option Str) : (configLoggingR fs f).out = configLogging fs f := by
  unfold configLoggingR configLogging
  cases f with
  | none => rfl
  | some f =>
    simp only [Run.andThen_out, createParentR_out]
    congr 1
    funext fs1
    cases fs1.read f with
    | ok c => rfl
    | error e => exact Fs.writeText_of_ok _ _ _

theorem exportMatrixR_out (io : NumIO) (fs : Fs) (s : Space Str) (st : Csr ℝ) (pre : Str) (fmt : Option Str) :
    (exportMatrixR io fs s st pre fmt).out = exportMatrix io fs s st pre fmt := by
  unfold exportMatrixR exportMatrix
  cases fmt with
  | none => rfl
  | some f =>
    simp only []
    split
    · rfl
    · split
      · split <;> rfl
      · rfl

theorem exportR_out (io : NumIO) (fs : Fs) (s : Space Str) (st : Csr ℝ) (pre : Str) (fmt : Option Str) :
    (exportR io fs s st pre fmt).out = s.export io fs st pre fmt := by
  unfold exportR Space.export
  simp only [Run.andThen_out, createParentR_out, exportMatrixR_out]
  congr 1
  funext fs1
  congr 1
  funext fs2
  unfold exportRowColumnR exportRowColumn exportCols
  simp only [Run.andThen_out, writeR_out, Fs.writeText_of_ok]
  split
  · simp only [writeR_out, Fs.writeText_of_ok]
  · rfl

theorem exportOptR_out (L : Lib) (fs : Fs) (s : Space Str) (pre : Str) (fmt : Option Str) :
    (exportOptR L fs s pre fmt).out = exportOpt L fs s pre fmt := by
  cases fmt with
  | none => rfl
  | some f => exact exportR_out _ _ _ _ _ _

theorem printR_out (L : Lib) (fs : Fs) (s : Space Str) (file : Str) (fmt : Option Str) :
    (printR L fs s file fmt).out = printJob L fmt (file, s) fs := by
  unfold printR printJob
  simp only [Run.andThen_out, saveR_out, exportOptR_out]

theorem forR_out {α : Type} {f : ℕ → α → Fs → Run PyErr} {g : ℕ → α → Fs → Py Fs}
    (h : ∀ i x fs, (f i x fs).out = g i x fs) : ∀ (xs : List α) (i : ℕ) (fs : Fs), (forR f i xs fs).out = forFs g i xs fs := by
  intro xs
  induction xs with
  | nil => intro i fs; rfl
  | cons x xs ih =>
    intro i fs
    simp only [forR, forFs, Run.andThen_out, h, ih]

theorem buildSpacesR_out (L : Lib) (fs : Fs) (pre fmt outDir : Str) (outFormat : Option Str)
    (ws ss rs ns : List (Option Str)) (gz : Bool) :
    (buildSpacesR L fs pre fmt outDir outFormat ws ss rs ns gz).out =
      buildSpaces L fs pre fmt outDir outFormat ws ss rs ns gz := by
  unfold buildSpacesR buildSpaces
  simp only [Run.compute_out]
  congr 1
  funext space
  apply forR_out
  intro i w fs
  simp only [Run.compute_out]
  congr 1
  funext wSpace
  apply forR_out
  intro j s fs
  simp only [Run.compute_out]
  congr 1
  funext sSpace
  apply forR_out
  intro k r fs
  simp only [Run.compute_out]
  congr 1
  funext rSpace
  apply forR_out
  intro l n fs
  simp only [Run.compute_out, printR_out]
  rfl

theorem transformRawR_out (L : Lib) (raw : Space Str) (pre outDir : Str) (outFormat : Option Str) (core : Str) (fs : Fs) :
    (transformRawR L raw pre outDir outFormat core fs).out = transformRaw L raw pre outDir outFormat core fs := by
  unfold transformRawR transformRaw
  simp only [Run.compute_out, printR_out]
  rfl

theorem buildPeriphR_out (L : Lib) (fs : Fs) (pre fmt outDir : Str) (outFormat : Option Str) (core : Str) (gz : Bool) :
    (buildPeriphR L fs pre fmt outDir outFormat core gz).out = buildPeriph L fs pre fmt outDir outFormat core gz := by
  unfold buildPeriphR buildPeriph
  simp only [Run.compute_out, transformRawR_out]

theorem buildPeriphBatchR_out (L : Lib) (fs : Fs) (pre fmt outDir : Str) (outFormat : Option Str) (inDir filter : Str)
    (gz : Bool) :
    (buildPeriphBatchR L fs pre fmt outDir outFormat inDir filter gz).out =
      buildPeriphBatch L fs pre fmt outDir outFormat inDir filter gz := by
  unfold buildPeriphBatchR buildPeriphBatch
  simp only [Run.compute_out]
  congr 1
  funext raw
  split
  · simp only [Run.compute_out]
    congr 1
    funext names
    apply forR_out
    intro i name fs
    exact transformRawR_out _ _ _ _ _ _ _
  · rfl

theorem simMeasureR_out (L : Lib) (inFile : Str) (c0 c1 : ℤ) (outDir descr : Str) (s : Space Str)
    (space2 : Option (Space Str)) (measure : Str) (fs : Fs) :
    (simMeasureR L inFile c0 c1 outDir descr s space2 measure fs).out =
      simMeasure L inFile c0 c1 outDir descr s space2 measure fs := by
  unfold simMeasureR simMeasure
  cases simOf measure with
  | none => rfl
  | some sim =>
    simp only [Run.andThen_out, Run.compute_out, createParentR_out, writeR_out, Fs.writeText_of_ok]
    congr 1; funext fs1
    congr 1; funext _
    cases h : fs1.write (outDir ++ ['/'] ++ descr ++ ['.'] ++ measure) [] with
    | error e => rfl
    | ok fs2 => simp only [ok_bind, Fs.writeText_again h]

theorem computeSimR_out (L : Lib) (inFile : Str) (columns : List Str) (outDir : Str) (measures files : List Str) (fs : Fs) :
    (computeSimR L inFile columns outDir measures files fs).out = computeSim L inFile columns outDir measures files fs := by
  unfold computeSimR computeSim
  simp only [Run.compute_out]
  congr 1
  funext c
  cases files with
  | nil => rfl
  | cons f r =>
    simp only []
    cases hl : loadSpace L fs f with
    | error e => cases e <;> rfl
    | ok s =>
      simp only [Run.compute_out]
      congr 1
      funext space2
      apply forR_out
      intro i m fs
      exact simMeasureR_out _ _ _ _ _ _ _ _ _ _

theorem computeSimBatchR_out (L : Lib) (inFile : Str) (columns : List Str) (outDir : Str) (measures : List Str)
    (inDir : Str) (fs : Fs) :
    (computeSimBatchR L inFile columns outDir measures inDir fs).out =
      computeSimBatch L inFile columns outDir measures inDir fs := by
  unfold computeSimBatchR computeSimBatch
  split
  · simp only [Run.compute_out]
    congr 1
    funext names
    apply forR_out
    intro i name fs
    exact computeSimR_out _ _ _ _ _ _ _
  · rfl

theorem computeNeighboursR_out (L : Lib) (inFile : Str) (n : ℤ) (outDir measure : Str) (files : List Str) (fs : Fs) :
    (computeNeighboursR L inFile n outDir measure files fs).out =
      computeNeighbours L inFile n outDir measure files fs := by
  unfold computeNeighboursR computeNeighbours
  cases simOf measure with
  | none => rfl
  | some sim =>
    cases files with
    | nil => rfl
    | cons f r =>
      simp only [Run.andThen_out, Run.compute_out, createParentR_out, writeR_out, Fs.writeText_of_ok]
      congr 1; funext s
      congr 1; funext space2
      congr 1; funext fs1
      congr 1; funext content
      congr 1; funext ws
      cases h : fs1.write (outDir ++ ['/'] ++ joinStr ['.'] [cs!"NEIGHBOURS", lastComp inFile, spacesDescr (f :: r)] ++ ['.'] ++
        measure) [] with
      | error e => rfl
      | ok fs2 => simp only [ok_bind, Fs.writeText_again h]

theorem exportModelR_out (L : Lib) (fs : Fs) (m : PyObj) (file : Str) :
    (exportModelR L fs m file).out = exportModel L fs m file := by
  unfold exportModelR exportModel
  split <;> simp only [Run.andThen_out, createParentR_out, writeR_out, Fs.writeText_of_ok, ok_bind, Run.fail_out]
  congr 1
  funext fs1
  rename_i m
  cases m.functions with
  | none => rfl
  | some s => exact exportR_out _ _ _ _ _ _

theorem trainModelR_out (L : Lib) (fs : Fs) (inFile outDir model : Str) (argFiles : List Str) (phraseFile : Str)
    (regression : Option Str) (cv intercept : Bool) (param : ParamVal) (range : Option (List ℝ)) (ex : Bool) :
    (trainModelR L fs inFile outDir model argFiles phraseFile regression cv intercept param range ex).out =
      trainModel L fs inFile outDir model argFiles phraseFile regression cv intercept param range ex := by
  unfold trainModelR trainModel
  cases argFiles with
  | nil => rfl
  | cons f r =>
    simp only [Run.compute_out, Run.andThen_out, saveR_out]
    cases ex <;> simp [exportModelR_out]

theorem applyModelR_out (L : Lib) (fs : Fs) (inFile outDir : Str) (model trained : Option Str) (argFiles : List Str)
    (alpha beta lam : Option ℝ) (outFormat : Option Str) :
    (applyModelR L fs inFile outDir model trained argFiles alpha beta lam outFormat).out =
      applyModel L fs inFile outDir model trained argFiles alpha beta lam outFormat := by
  unfold applyModelR applyModel
  simp only [Run.compute_out]
  congr 1
  funext m
  cases argFiles with
  | nil => rfl
  | cons f r => simp only [Run.compute_out, printR_out]; rfl

theorem mainCoreR_out (L : Lib) (fs : Fs) (argv : List Str) : (mainCoreR L fs argv).out = mainCore L fs argv := by
  unfold mainCoreR mainCore
  simp only [Run.compute_out, Run.andThen_out, Run.lift_out, configLoggingR_out, buildSpacesR_out]

theorem mainPeriphR_out (L : Lib) (fs : Fs) (argv : List Str) : (mainPeriphR L fs argv).out = mainPeriph L fs argv := by
  unfold mainPeriphR mainPeriph
  simp only [Run.compute_out, Run.andThen_out, Run.lift_out, configLoggingR_out]
  congr 1; funext st
  congr 1; funext fs1
  congr 1; funext pre
  congr 1; funext outDir
  congr 1; funext fmt
  congr 1; funext gz
  congr 1; funext gz
  cases (st cs!"core_in_dir").asStr with
  | some d => simp only [Run.lift_out, buildPeriphBatchR_out]
  | none => simp only [Run.lift_out, Run.compute_out, buildPeriphR_out]

theorem mainSimsR_out (L : Lib) (fs : Fs) (argv : List Str) : (mainSimsR L fs argv).out = mainSims L fs argv := by
  unfold mainSimsR mainSims
  simp only [Run.compute_out, Run.andThen_out, Run.lift_out, configLoggingR_out]
  congr 1; funext st
  congr 1; funext fs1
  congr 1; funext inFile
  congr 1; funext outDir
  congr 1; funext measures
  congr 1; funext columns
  cases (st cs!"in_dir").asStr with
  | some d => simp only [Run.lift_out, computeSimBatchR_out]
  | none => simp only [Run.lift_out, Run.compute_out, computeSimR_out]

theorem mainNeighR_out (L : Lib) (fs : Fs) (argv : List Str) : (mainNeighR L fs argv).out = mainNeigh L fs argv := by
  unfold mainNeighR mainNeigh
  simp only [Run.compute_out, Run.andThen_out, Run.lift_out, configLoggingR_out, computeNeighboursR_out]

theorem mainTrainR_out (L : Lib) (fs : Fs) (argv : List Str) : (mainTrainR L fs argv).out = mainTrain L fs argv := by
  unfold mainTrainR mainTrain
  simp only [Run.compute_out, Run.andThen_out, Run.lift_out, configLoggingR_out, trainModelR_out]

theorem mainApplyR_out (L : Lib) (fs : Fs) (argv : List Str) : (mainApplyR L fs argv).out = mainApply L fs argv := by
  unfold mainApplyR mainApply
  simp only [Run.compute_out, Run.andThen_out, Run.lift_out, configLoggingR_out, applyModelR_out]

end
end Dissect
