import Verif.Lemmas.Crash

/-!
# The end of a run is one of its moments

For every script the disk after a run that succeeds is among the states the disk may be in during the run
(`Run.seen`, `Model/Crash.lean`), so that the theorems on all moments of a run speak about the end as well.
-/

namespace Dissect
noncomputable section

/-- The disk at the end of a successful run has been seen. -/
def Run.Ends {ε : Type} (r : Run ε) : Prop := ∀ g, r.out = .ok g → r.seen g

namespace Run.Ends
variable {ε : Type}

theorem done (fs : Fs) : (Run.done fs : Run ε).Ends := by
  intro g h; cases h; exact rfl

theorem fail (fs : Fs) (e : ε) : (Run.fail fs e).Ends := by
  intro g h; cases h

theorem andThen {r : Run ε} {k : Fs → Run ε} (hk : ∀ fs, (k fs).Ends) : (r.andThen k).Ends := by
  intro g h
  cases hr : r.out with
  | error e => rw [Run.andThen, hr] at h; cases h
  | ok fs' =>
    rw [Run.andThen, hr] at h
    exact Or.inr ⟨fs', hr, hk fs' g h⟩

theorem compute {α : Type} {fs : Fs} {x : Except ε α} {k : α → Run ε} (hk : ∀ a, (k a).Ends) : (Run.compute fs x k).Ends := by
  intro g h
  cases x with
  | error e => cases h
  | ok a => exact Or.inr ⟨a, rfl, hk a g h⟩

theorem mkdirR (fs : Fs) (p : Str) : (Dissect.mkdirR fs p).Ends := fun _ h => Or.inr h

theorem makedirsR (name : Str) : ∀ fs : Fs, (Dissect.makedirsR fs name).Ends := by
  intro fs
  rw [Dissect.makedirsR]
  split
  · refine andThen fun fs' => ?_
    split
    · exact done _
    · exact mkdirR _ _
  · exact mkdirR _ _

theorem createParentR (fs : Fs) (p : Str) : (Dissect.createParentR fs p).Ends := by
  unfold Dissect.createParentR
  split
  · exact done _
  · exact makedirsR _ _

theorem writeR (fs : Fs) (p : Str) (txt : Py Str) : (Dissect.writeR fs p txt).Ends := by
  intro g h
  obtain ⟨c, rfl, h'⟩ := Fs.writeText_ok.1 (show fs.writeText p txt = .ok g from h)
  exact Or.inr ⟨c, fun c' hc => by rw [ok_inj hc], h'⟩

theorem saveR (fs : Fs) (c p : Str) : (Dissect.saveR fs c p).Ends := andThen fun _ => writeR _ _ _

theorem exportR (io : NumIO) (fs : Fs) (s : Space Str) (st : Csr ℝ) (pre : Str) (fmt : Option Str) :
    (Dissect.exportR io fs s st pre fmt).Ends := andThen fun _ => andThen fun _ => andThen fun _ => writeR _ _ _

theorem printR (L : Lib) (fs : Fs) (s : Space Str) (file : Str) (fmt : Option Str) : (Dissect.printR L fs s file fmt).Ends := by
  refine andThen fun fs1 => ?_
  cases fmt with
  | none => exact done _
  | some f => exact exportR _ _ _ _ _ _

theorem forR {α : Type} {f : ℕ → α → Fs → Run PyErr} : ∀ (l : List α) (i : ℕ) (fs : Fs), (Dissect.forR f i l fs).Ends
  | [], _, fs => done fs
  | _ :: xs, _, _ => andThen fun fs' => forR xs _ fs'

theorem buildSpacesR (L : Lib) (fs : Fs) (pre fmt outDir : Str) (outFormat : Option Str) (ws ss rs ns : List (Option Str))
    (gz : Bool) : (Dissect.buildSpacesR L fs pre fmt outDir outFormat ws ss rs ns gz).Ends :=
  compute fun _ => forR _ _ _

theorem transformRawR (L : Lib) (raw : Space Str) (pre outDir : Str) (outFormat : Option Str) (core : Str) (fs : Fs) :
    (Dissect.transformRawR L raw pre outDir outFormat core fs).Ends := compute fun _ => compute fun _ => printR _ _ _ _ _

theorem buildPeriphR (L : Lib) (fs : Fs) (pre fmt outDir : Str) (outFormat : Option Str) (core : Str) (gz : Bool) :
    (Dissect.buildPeriphR L fs pre fmt outDir outFormat core gz).Ends := compute fun _ => transformRawR _ _ _ _ _ _ _

theorem buildPeriphBatchR (L : Lib) (fs : Fs) (pre fmt outDir : Str) (outFormat : Option Str) (inDir filter : Str) (gz : Bool) :
    (Dissect.buildPeriphBatchR L fs pre fmt outDir outFormat inDir filter gz).Ends := by
  refine compute fun raw => ?_
  split
  · exact compute fun _ => forR _ _ _
  · exact fail _ _

theorem computeSimR (L : Lib) (inFile : Str) (columns : List Str) (outDir : Str) (measures files : List Str) (fs : Fs) :
    (Dissect.computeSimR L inFile columns outDir measures files fs).Ends := by
  refine compute fun c => ?_
  cases files with
  | nil => exact fail _ _
  | cons f r =>
    simp only
    split
    · exact done _
    · exact fail _ _
    · exact compute fun _ => forR _ _ _

theorem computeSimBatchR (L : Lib) (inFile : Str) (columns : List Str) (outDir : Str) (measures : List Str) (inDir : Str) (fs : Fs) :
    (Dissect.computeSimBatchR L inFile columns outDir measures inDir fs).Ends := by
  unfold Dissect.computeSimBatchR
  split
  · exact compute fun _ => forR _ _ _
  · exact fail _ _

theorem computeNeighboursR (L : Lib) (inFile : Str) (n : ℤ) (outDir measure : Str) (files : List Str) (fs : Fs) :
    (Dissect.computeNeighboursR L inFile n outDir measure files fs).Ends := by
  unfold Dissect.computeNeighboursR
  split
  · exact fail _ _
  · split
    · exact fail _ _
    · exact compute fun _ => compute fun _ => andThen fun _ => compute fun _ => compute fun _ => andThen fun _ => writeR _ _ _

theorem exportModelR (L : Lib) (fs : Fs) (m : PyObj) (file : Str) : (Dissect.exportModelR L fs m file).Ends := by
  unfold Dissect.exportModelR
  split
  · exact fail _ _
  · exact andThen fun _ => writeR _ _ _
  · exact andThen fun _ => writeR _ _ _
  · exact andThen fun _ => writeR _ _ _
  · exact andThen fun _ => fail _ _
  · refine andThen fun _ => ?_
    split
    · exact fail _ _
    · exact exportR _ _ _ _ _ _
  · exact fail _ _

theorem trainModelR (L : Lib) (fs : Fs) (inFile outDir model : Str) (argFiles : List Str) (phraseFile : Str)
    (regression : Option Str) (cv intercept : Bool) (param : ParamVal) (range : Option (List ℝ)) (exportParams : Bool) :
    (Dissect.trainModelR L fs inFile outDir model argFiles phraseFile regression cv intercept param range exportParams).Ends := by
  unfold Dissect.trainModelR
  split
  · exact fail _ _
  · refine compute fun _ => compute fun _ => compute fun _ => compute fun _ => andThen fun _ => ?_
    split
    · exact exportModelR _ _ _ _
    · exact done _

theorem applyModelR (L : Lib) (fs : Fs) (inFile outDir : Str) (model trained : Option Str) (argFiles : List Str)
    (alpha beta lam : Option ℝ) (outFormat : Option Str) :
    (Dissect.applyModelR L fs inFile outDir model trained argFiles alpha beta lam outFormat).Ends := by
  refine compute fun m => ?_
  split
  · exact fail _ _
  · exact compute fun _ => compute fun _ => compute fun _ => compute fun _ => compute fun _ => printR _ _ _ _ _

end Run.Ends

end
end Dissect
