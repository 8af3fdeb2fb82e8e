import Verif.Examples.Rerun

/-! # Concrete instances of C79 and C90: applying a stored model; interrupting the runs of the other examples -/

namespace Dissect
noncomputable section
namespace Examples

/-! ## C79 -/

theorem sum_composes : ∃ c' res, (⟨.weighted 1 2, none⟩ : Composer Str).compose trData (.one zoo) = (c', .ok res) ∧
    res.id2row = [cs!"dog", cs!"cat"] := ⟨_, _, rfl, rfl⟩

theorem sum_selected : SelectedModel demo demoFs none none none none (some cs!"/data/m.pkl") sumModel :=
  .inr ⟨rfl, _, rfl, cs!"M", rfl, demo_undump_M, .inl ⟨_, rfl⟩⟩

theorem apply_run : ∃ fs', applyModel demo demoFs cs!"/data/tr.txt" cs!"/out/x" none (some cs!"/data/m.pkl") [cs!"/data/in.pkl"]
    none none none none = .ok fs' := by
  obtain ⟨c', res, h, -⟩ := sum_composes
  exact C79_succeeds tr_base sum_selected .weighted zoo_args tr_read tr_triples (.composer h) demo_out
    (by rw [demoFs_dirs]; decide)

theorem selected_sum {m : PyObj} (h : SelectedModel demo demoFs none none none none (some cs!"/data/m.pkl") m) : m = sumModel := by
  rcases h with ⟨nm, h, -⟩ | ⟨-, f, hf, txt, hr, hu, -⟩
  · cases h
  · cases hf
    have : txt = cs!"M" := ok_inj (hr.symm.trans (show demoFs.read cs!"/data/m.pkl" = .ok cs!"M" from rfl))
    subst this
    exact (Option.some.inj (hu.symm.trans demo_undump_M))

/-- The composed space is stored under the name of the class. -/
example : ∃ fs' res, applyModel demo demoFs cs!"/data/tr.txt" cs!"/out/x" none (some cs!"/data/m.pkl") [cs!"/data/in.pkl"]
      none none none none = .ok fs' ∧
    fs'.read cs!"/out/x/COMPOSED_SS.WeightedAdditive.tr.txt.pkl" = .ok (demo.dump (.space res)) ∧
    fs'.read cs!"/data/in.pkl" = .ok cs!"S" := by
  obtain ⟨fs', h⟩ := apply_run
  obtain ⟨m, cls, first, args, txt, data, res, h1, h2, -, -, -, -, h7⟩ := C79_saves tr_base h
  obtain rfl := selected_sum h1
  cases h2
  refine ⟨fs', res, h, h7.pickle, (C79_other_files tr_base h ?_).trans (show demoFs.read cs!"/data/in.pkl" = .ok cs!"S" from rfl)⟩
  intro m cls hm hc
  obtain rfl := selected_sum hm
  cases hc
  decide

example : applyModel demo demoFs cs!"/data/tr.txt" cs!"/out/x" (some cs!"lexical_func") none [cs!"/data/in.pkl"]
    none none none none = .error .valueError := C79_unknown_model (by decide)

/-! ## C90 -/

/-- The state in which the disk is left by a successful run is one of those the run goes through. -/
example : ∃ fs', buildSpaces demo demoFs cs!"/data/in" cs!"pkl" cs!"/out/x" none ws2 ss2 [none] [none] false = .ok fs' ∧
    OneBroken demoFs fs' (CoreComplete demo demoFs cs!"/data/in" cs!"in" cs!"pkl" cs!"/out/x" false ws2 ss2 [none] [none])
      (CoreOutput demoFs cs!"in" cs!"/out/x" ws2 ss2 [none] [none]) ∧
    NoneBroken demoFs fs' (CoreComplete demo demoFs cs!"/data/in" cs!"in" cs!"pkl" cs!"/out/x" false ws2 ss2 [none] [none]) := by
  obtain ⟨fs', h⟩ := core_run sumModel
  refine ⟨fs', h, C90_build_core_space in_base (Run.Ends.buildSpacesR (outFormat := none) _ _ _ _ _ _ _ _ _ _ _ ?_),
    C90_build_core_space_returns in_base h⟩
  rw [buildSpacesR_out]
  exact h

example : ∃ g, (buildPeriphR demo demoFs cs!"/data/in" cs!"pkl" cs!"/out/x" none cs!"/data/in.pkl" false).seen g ∧
    OneBroken demoFs g (PeriphComplete demo demoFs cs!"/data/in" cs!"in" cs!"pkl" cs!"/out/x" cs!"/data/in.pkl" false)
      (PeriphOutput demoFs cs!"in" cs!"/out/x" cs!"/data/in.pkl") := by
  obtain ⟨fs', h⟩ := periph_run
  rw [← buildPeriphR_out] at h
  have := Run.Ends.buildPeriphR _ _ _ _ _ _ _ _ _ h
  exact ⟨fs', this, C90_build_peripheral_space in_base this⟩

theorem out_not_cores {t : List Str} {nm : Str} : cs!"out" :: t ≠ demoFs.resolve (withSlash cs!"/cores" ++ nm) := by
  have h1 : withSlash cs!"/cores" ++ nm = cs!"/cores" ++ '/' :: nm := by simp [withSlash]
  have h2 : demoFs.resolve (cs!"/cores" ++ '/' :: nm) = cs!"cores" :: pathComps nm := by
    have h : isAbs (cs!"/cores" ++ '/' :: nm) = true := by simp [isAbs]
    unfold Fs.resolve
    rw [if_pos h, pathComps_slash]
    have : pathComps cs!"/cores" = [cs!"cores"] := by decide
    rw [this]
    rfl
  rw [h1, h2]
  intro h
  exact absurd (List.cons.inj h).1 (by decide)

example : ∃ g, (buildPeriphBatchR demo demoFs cs!"/data/in" cs!"pkl" cs!"/out/x" none cs!"/cores" cs!"i" false).seen g ∧
    OneBroken demoFs g (fun n c => ∃ core, PeriphComplete demo demoFs cs!"/data/in" cs!"in" cs!"pkl" cs!"/out/x" core false n c)
      (fun n => ∃ core, PeriphOutput demoFs cs!"in" cs!"/out/x" core n) := by
  obtain ⟨fs', h⟩ := periph_batch_run
  rw [← buildPeriphBatchR_out] at h
  have := Run.Ends.buildPeriphBatchR _ _ _ _ _ _ _ _ _ _ h
  refine ⟨fs', this, C90_build_peripheral_space_batch in_base (fun core n hn nm => ?_) this⟩
  obtain ⟨t, rfl⟩ := periph_out hn
  exact out_not_cores

example : ∃ g, (computeSimR demo cs!"/data/pairs.txt" [cs!"2", cs!"3"] cs!"/out/x" [cs!"lin", cs!"foo"] [cs!"/data/in.pkl"] demoFs).seen g ∧
    OneBroken demoFs g
      (fun n c => ∃ m sim content, m ∈ [cs!"lin", cs!"foo"] ∧ (m, sim) ∈ measureTable ∧
        n = demoFs.resolve (simsFile cs!"/out/x" cs!"pairs.txt" cs!"in" m) ∧
        demoFs.read cs!"/data/pairs.txt" = .ok content ∧ SimFile demo zoo none sim 1 2 content c)
      (fun n => ∃ m sim, m ∈ [cs!"lin", cs!"foo"] ∧ (m, sim) ∈ measureTable ∧
        n = demoFs.resolve (simsFile cs!"/out/x" cs!"pairs.txt" cs!"in" m)) := by
  obtain ⟨fs', h⟩ := sims_run
  rw [← computeSimR_out] at h
  have := Run.Ends.computeSimR _ _ _ _ _ _ _ _ h
  exact ⟨fs', this, C90_compute_similarities pairs_base pairs_name two_col three_col in_name in_from this⟩

/-- In batch mode: all disks the run goes through. -/
example (g : Fs) (h : (computeSimBatchR demo cs!"/data/pairs.txt" [cs!"2", cs!"3"] cs!"/out/x" [cs!"lin", cs!"foo"] cs!"/cores" demoFs).seen g) :
    OneBroken demoFs g
      (fun n c => ∃ file d s m sim content, IsStem file d ∧ HoldsSpace demo demoFs file s ∧ m ∈ [cs!"lin", cs!"foo"] ∧
        (m, sim) ∈ measureTable ∧ n = demoFs.resolve (simsFile cs!"/out/x" cs!"pairs.txt" d m) ∧
        demoFs.read cs!"/data/pairs.txt" = .ok content ∧ SimFile demo s none sim 1 2 content c)
      (fun n => ∃ file d m sim, IsStem file d ∧ m ∈ [cs!"lin", cs!"foo"] ∧ (m, sim) ∈ measureTable ∧
        n = demoFs.resolve (simsFile cs!"/out/x" cs!"pairs.txt" d m)) := by
  refine C90_compute_similarities_batch pairs_base pairs_name two_col three_col (fun d m sim hm hk nm => ?_) h
  obtain ⟨t, ht⟩ := sims_out (ms := [cs!"lin", cs!"foo"]) ⟨m, sim, hm, hk, rfl⟩
  rw [ht]
  exact out_not_cores

example : ∃ g, (computeNeighboursR demo cs!"/data/words.txt" 1 cs!"/out/x" cs!"cos" [cs!"/data/in.pkl"] demoFs).seen g ∧
    OneBroken demoFs g
      (fun x c => x = demoFs.resolve (neighboursFile cs!"/out/x" cs!"words.txt" cs!"in" cs!"cos") ∧ ∃ content blocks,
        demoFs.read cs!"/data/words.txt" = .ok content ∧
        List.Forall₂ (NeighbourBlock demo zoo none .cos 1) (textLines content) blocks ∧ c = blocks.flatten)
      (fun x => x = demoFs.resolve (neighboursFile cs!"/out/x" cs!"words.txt" cs!"in" cs!"cos")) := by
  obtain ⟨fs', h⟩ := neigh_run
  rw [← computeNeighboursR_out] at h
  have := Run.Ends.computeNeighboursR _ _ _ _ _ _ _ _ h
  exact ⟨fs', this, C90_compute_neighbours words_base in_name in_from (sim := .cos) (by decide) this⟩

example : ∃ g, (trainModelR demo demoFs cs!"/data/tr.txt" cs!"/out/x" cs!"full_add" [cs!"/data/in.pkl"] cs!"/data/in.pkl"
      (some cs!"ridge") false true (.num 2) none false).seen g ∧
    OneBroken demoFs g
      (fun n c => ∃ first args phrase txt data obj p, ArgsFrom demo demoFs [cs!"/data/in.pkl"] first args ∧
        HoldsSpace demo demoFs cs!"/data/in.pkl" phrase ∧ demoFs.read cs!"/data/tr.txt" = .ok txt ∧ TriplesOf txt data ∧
        Trained demo.env (DocLearner (some cs!"ridge") false true (ParamVal.num 2).number none) first args phrase data cs!"full_add" obj ∧
        ModelText demo (trainedFile cs!"/out/x" cs!"full_add" cs!"tr.txt") obj p c ∧ n = demoFs.resolve p)
      (fun n => ∃ p ∈ (trainedFile cs!"/out/x" cs!"full_add" cs!"tr.txt" ++ cs!".pkl") ::
        paramFiles (trainedFile cs!"/out/x" cs!"full_add" cs!"tr.txt"), n = demoFs.resolve p) := by
  obtain ⟨fs', obj, h, -⟩ := demo_train cs!"full_add" (by decide)
  rw [← trainModelR_out] at h
  have := Run.Ends.trainModelR _ _ _ _ _ _ _ _ _ _ _ _ _ _ h
  exact ⟨fs', this, C90_train_composition tr_base this⟩

example : ∃ g, (applyModelR demo demoFs cs!"/data/tr.txt" cs!"/out/x" none (some cs!"/data/m.pkl") [cs!"/data/in.pkl"]
      none none none none).seen g ∧
    OneBroken demoFs g
      (fun n c => ∃ m cls first args txt data res,
        SelectedModel demo demoFs none none none none (some cs!"/data/m.pkl") m ∧ ClassOf m cls ∧
        ArgsFrom demo demoFs [cs!"/data/in.pkl"] first args ∧ demoFs.read cs!"/data/tr.txt" = .ok txt ∧ TriplesOf txt data ∧
        ComposedBy first args data res m ∧ CompleteFile demo demoFs (composedFile cs!"/out/x" cls cs!"tr.txt") res n c)
      (fun n => ∃ m cls, ClassOf m cls ∧ FileOf demoFs (composedFile cs!"/out/x" cls cs!"tr.txt") n) := by
  obtain ⟨fs', h⟩ := apply_run
  rw [← applyModelR_out] at h
  have := Run.Ends.applyModelR _ _ _ _ _ _ _ _ _ _ _ _ h
  exact ⟨fs', this, C90_apply_composition tr_base this⟩

end Examples
end
end Dissect
