import Verif.Examples.Demo
import Verif.Examples.Scripts
import Verif.Props.EndToEnd

/-! # Training and applying, from end to end, in the file system of the examples -/

namespace Dissect
noncomputable section
namespace Examples

theorem demo_ideal : demo.env.Ideal := idealEnv_ideal

theorem zoo_args : ArgsFrom demo demoFs [cs!"/data/in.pkl"] zoo (.one zoo) := .one in_pkl (by simp)

theorem tr_read : demoFs.read cs!"/data/tr.txt" = .ok cs!"dog cat dog\n\ncat dog cat\n" := rfl

theorem tr_triples : TriplesOf cs!"dog cat dog\n\ncat dog cat\n"
    [(cs!"dog", cs!"cat", cs!"dog"), (cs!"cat", cs!"dog", cs!"cat")] := by
  show List.Forall₂ _ [[cs!"dog", cs!"cat", cs!"dog"], [cs!"cat", cs!"dog", cs!"cat"]] _
  exact .cons ⟨[], rfl⟩ (.cons ⟨[], rfl⟩ .nil)

theorem zoo_fits {m : Str} : ShapesFit m zoo zoo zoo :=
  ⟨zoo_wf, zoo_wf, zoo_wf, zoo_cols, zoo_cols, zoo_cols, fun _ => ⟨rfl, rfl⟩, fun _ => rfl⟩

theorem zoo_usable {m : Str} : ∃ t ∈ [((cs!"dog", cs!"cat", cs!"dog") : Triple Str), (cs!"cat", cs!"dog", cs!"cat")],
    UsableSample m zoo zoo zoo t := by
  refine ⟨(cs!"dog", cs!"cat", cs!"dog"), by simp, ?_⟩
  unfold UsableSample
  split
  · exact ⟨by decide, by decide⟩
  · exact ⟨by decide, by decide, by decide⟩

/-- Every model can be trained on the two phrases of `/data/tr.txt`. -/
theorem demo_train (m : Str) (hm : m ∈ trainableModels) :
    ∃ fs' obj, trainModel demo demoFs cs!"/data/tr.txt" cs!"/out/x" m [cs!"/data/in.pkl"] cs!"/data/in.pkl" (some cs!"ridge") false
      true (.num 2) none false = .ok fs' ∧
    Trained demo.env (DocLearner (some cs!"ridge") false true (some 2) none) zoo (.one zoo) zoo
      [(cs!"dog", cs!"cat", cs!"dog"), (cs!"cat", cs!"dog", cs!"cat")] m obj ∧
    fs'.read (trainedFile cs!"/out/x" m cs!"tr.txt" ++ cs!".pkl") = .ok (demo.dump obj) := by
  refine C133_train_succeeds demo_ideal (data_base (nm := cs!"tr.txt") (by decide)) zoo_args .one in_pkl tr_read tr_triples hm
    zoo_fits zoo_usable (fun _ _ => ⟨2, rfl⟩) demo_out ?_
  rw [demoFs_dirs]
  simp only [trainableModels, List.mem_cons, List.not_mem_nil, or_false] at hm
  rcases hm with rfl | rfl | rfl | rfl <;> decide

/-! ## Command lines of `train_composition` -/

/-- The options of every command line below. -/
def baseLine (m : Str) : List Given := [⟨docTrain[0], .shortSep 'i', cs!"/data/tr.txt"⟩, ⟨docTrain[1], .shortSep 'o', cs!"/out/x"⟩,
  ⟨docTrain[2], .shortSep 'm', m⟩, ⟨docTrain[7], .shortSep 'a', cs!"/data/in.pkl"⟩, ⟨docTrain[8], .shortSep 'p', cs!"/data/in.pkl"⟩]

/-- The same as words. -/
def baseArgv (m : Str) : List Str := [cs!"-i", cs!"/data/tr.txt", cs!"-o", cs!"/out/x", cs!"-m", m, cs!"-a", cs!"/data/in.pkl",
  cs!"-p", cs!"/data/in.pkl"]

theorem base_valid {m : Str} : ∀ g ∈ baseLine m, g.Valid trainOpts := by
  intro g hg
  simp only [baseLine, List.mem_cons, List.not_mem_nil, or_false] at hg
  rcases hg with rfl | rfl | rfl | rfl | rfl <;> simp [Given.Valid, docTrain, trainOpts]

theorem line_parses (m : Str) (gs : List Given) (hg : ∀ g ∈ gs, g.Valid trainOpts) :
    ∃ st, cliTrain.parseArgs demo.parseCfg demoFs (baseArgv m ++ (gs.map Given.render).flatten) = .ok st ∧
      ∀ o ∈ trainOpts, st o.var = wanted (baseLine m ++ gs) (fun _ => none) o := by
  obtain ⟨st, h1, h2⟩ := parse_values trainOpts_ok demo.parseCfg demoFs (baseLine m ++ gs)
    (by
      intro g hg'
      rcases List.mem_append.1 hg' with h | h
      · exact base_valid g h
      · exact hg g h)
    [] (by intro a ha; cases ha) (fun _ => none) rfl
  refine ⟨st, ?_, h2⟩
  rw [← h1, List.map_append, List.flatten_append, List.append_nil]
  rfl

/-- `-m full_add -r ridge --lambda=2`. -/
theorem ridge_line : ∃ st fs' obj,
    cliTrain.parseArgs demo.parseCfg demoFs (baseArgv cs!"full_add" ++ [cs!"-r", cs!"ridge", cs!"--lambda=2"]) = .ok st ∧
    (∀ o ∈ trainOpts, st o.var = wanted (baseLine cs!"full_add" ++ [⟨docTrain[3], .shortSep 'r', cs!"ridge"⟩,
      ⟨docTrain[5], .longEq, cs!"2"⟩]) (fun _ => none) o) ∧
    mainTrain demo demoFs (baseArgv cs!"full_add" ++ [cs!"-r", cs!"ridge", cs!"--lambda=2"]) = .ok fs' ∧
    Trained demo.env (DocLearner (some cs!"ridge") false true (some 2) none) zoo (.one zoo) zoo
      [(cs!"dog", cs!"cat", cs!"dog"), (cs!"cat", cs!"dog", cs!"cat")] cs!"full_add" obj ∧
    fs'.read cs!"/out/x/TRAINED_COMP_MODEL.full_add.tr.txt.pkl" = .ok (demo.dump obj) := by
  obtain ⟨st, h1, h2⟩ := line_parses cs!"full_add" [⟨docTrain[3], .shortSep 'r', cs!"ridge"⟩, ⟨docTrain[5], .longEq, cs!"2"⟩]
    (by
      intro g hg
      simp only [List.mem_cons, List.not_mem_nil, or_false] at hg
      rcases hg with rfl | rfl <;> simp [Given.Valid, docTrain, trainOpts])
  have hcv : st cs!"crossvalidation" = .str cs!"False" := h2 trainOpts[0] (by decide)
  have hic : st cs!"intercept" = .str cs!"True" := h2 docTrain[4] (by decide)
  have hex : st cs!"export_params" = .str cs!"False" := h2 docTrain[9] (by decide)
  have hreg : st cs!"regression" = .str cs!"ridge" := h2 docTrain[3] (by decide)
  have hpar : st cs!"param" = .str cs!"2" := h2 docTrain[5] (by decide)
  have hran : st cs!"param_range" = .none := h2 docTrain[6] (by decide)
  obtain ⟨fs', obj, k1, k2, k3⟩ := C133_main_train (cv := false) (ic := true) (lam := some 2) (range := none) demo_ideal h1
    (h2 docTrain[10] (by decide)) (h2 docTrain[0] (by decide)) (h2 docTrain[1] (by decide)) (h2 docTrain[2] (by decide))
    (h2 docTrain[7] (by decide)) (h2 docTrain[8] (by decide)) (by rw [hcv]; exact demo_false) (by rw [hic]; exact demo_true)
    (by rw [hex]; exact demo_false)
    (by rw [hpar]; exact ⟨_, parse_digit (c := '2') (by simp), by
      show some (2 : ℝ) = some ((2 : ℕ) : ℝ); norm_num⟩) (by rw [hran]; rfl)
    (fun _ _ => ⟨by simp, rfl⟩) (data_base (nm := cs!"tr.txt") (by decide)) zoo_args .one in_pkl tr_read tr_triples (by decide)
    zoo_fits zoo_usable demo_out (by rw [demoFs_dirs]; decide)
  rw [hreg] at k2
  exact ⟨st, fs', obj, h1, h2, k1, k2, k3⟩

example : ∃ fs' : Fs, ∃ first args phrase data obj, Trained demo.env (fun l => l = .ridge true false lambdaGrid (some 2)) first args phrase
    data cs!"full_add" obj ∧ fs'.read cs!"/out/x/TRAINED_COMP_MODEL.full_add.tr.txt.pkl" = .ok (demo.dump obj) := by
  obtain ⟨st, fs', obj, h1, h2, h3, _⟩ := ridge_line
  have hcv : st cs!"crossvalidation" = .str cs!"False" := h2 trainOpts[0] (by decide)
  have hic : st cs!"intercept" = .str cs!"True" := h2 docTrain[4] (by decide)
  have hran : st cs!"param_range" = .none := h2 docTrain[6] (by decide)
  have hpar : st cs!"param" = .str cs!"2" := h2 docTrain[5] (by decide)
  obtain ⟨s, x, ic, k1, k2, k3, first, args, phrase, data, obj, k4, k5⟩ := C69_lambda_partial h1 (h2 docTrain[3] (by decide))
    (by rw [hcv]; exact demo_false) (h2 docTrain[2] (by decide)) (Or.inl rfl) (h2 docTrain[0] (by decide))
    (data_base (nm := cs!"tr.txt") (by decide)) (h2 docTrain[1] (by decide)) (by rw [hran]; rfl) h3
  rw [hpar] at k1
  cases k1
  rw [hic] at k3
  cases demo_true.symm.trans k3
  have : x = 2 := by
    have h := (parse_digit (c := '2') (by simp)).symm.trans k2
    injection h with h
    rw [← h]; show ((2 : ℕ) : ℝ) = 2; norm_num
  subst this
  exact ⟨fs', first, args, phrase, data, obj, k4, k5⟩

/-- The stored model has an intercept. -/
example : ∃ fs' obj, mainTrain demo demoFs (baseArgv cs!"full_add" ++ [cs!"-r", cs!"ridge", cs!"--lambda=2"]) = .ok fs' ∧
    fs'.read cs!"/out/x/TRAINED_COMP_MODEL.full_add.tr.txt.pkl" = .ok (demo.dump obj) ∧ StoredIntercept obj true := by
  obtain ⟨st, fs', obj, h1, h2, h3, _⟩ := ridge_line
  have hic : st cs!"intercept" = .str cs!"True" := h2 docTrain[4] (by decide)
  obtain ⟨obj, k1, k2⟩ := C77_with_regression_partial h1 (h2 docTrain[2] (by decide)) (Or.inl rfl) (h2 docTrain[0] (by decide))
    (data_base (nm := cs!"tr.txt") (by decide)) (h2 docTrain[1] (by decide)) (h2 docTrain[3] (by decide)) (Or.inl rfl)
    (by rw [hic]; exact demo_true) h3
  exact ⟨fs', obj, h3, k1, k2⟩

/-- It is of the class the name stands for. -/
example : ∃ fs' cls obj, (cs!"full_add", cls) ∈ acceptedModels ∧ ClassOf obj cls ∧
    mainTrain demo demoFs (baseArgv cs!"full_add" ++ [cs!"-r", cs!"ridge", cs!"--lambda=2"]) = .ok fs' ∧
    fs'.read cs!"/out/x/TRAINED_COMP_MODEL.full_add.tr.txt.pkl" = .ok (demo.dump obj) := by
  obtain ⟨st, fs', obj, h1, h2, h3, _⟩ := ridge_line
  have hic : st cs!"intercept" = .str cs!"True" := h2 docTrain[4] (by decide)
  obtain ⟨cls, obj, k1, k2, k3⟩ := C78_accepted_partial h1 (h2 docTrain[2] (by decide)) (h2 docTrain[0] (by decide))
    (data_base (nm := cs!"tr.txt") (by decide)) (h2 docTrain[1] (by decide)) (by rw [hic]; exact demo_true) h3
  exact ⟨fs', cls, obj, k1, k2, h3, k3⟩

/-- Without `-r` the model is trained with an intercept although `--intercept=False` asks for none. -/
example : ∃ fs' obj, mainTrain demo demoFs (baseArgv cs!"full_add" ++ [cs!"--intercept=False"]) = .ok fs' ∧
    fs'.read cs!"/out/x/TRAINED_COMP_MODEL.full_add.tr.txt.pkl" = .ok (demo.dump obj) ∧
    StoredIntercept obj true ∧ ¬ StoredIntercept obj false := by
  obtain ⟨st, h1, h2⟩ := line_parses cs!"full_add" [⟨docTrain[4], .longEq, cs!"False"⟩]
    (by
      intro g hg
      simp only [List.mem_singleton] at hg
      subst hg
      simp [Given.Valid, docTrain, trainOpts])
  have hcv : st cs!"crossvalidation" = .str cs!"False" := h2 trainOpts[0] (by decide)
  have hic : st cs!"intercept" = .str cs!"False" := h2 docTrain[4] (by decide)
  have hex : st cs!"export_params" = .str cs!"False" := h2 docTrain[9] (by decide)
  have hreg : st cs!"regression" = .none := h2 docTrain[3] (by decide)
  have hpar : st cs!"param" = .none := h2 docTrain[5] (by decide)
  have hran : st cs!"param_range" = .none := h2 docTrain[6] (by decide)
  obtain ⟨fs', obj, k1, k2, k3⟩ := C133_main_train (cv := false) (ic := false) (lam := none) (range := none) demo_ideal h1
    (h2 docTrain[10] (by decide)) (h2 docTrain[0] (by decide)) (h2 docTrain[1] (by decide)) (h2 docTrain[2] (by decide))
    (h2 docTrain[7] (by decide)) (h2 docTrain[8] (by decide)) (by rw [hcv]; exact demo_false) (by rw [hic]; exact demo_false)
    (by rw [hex]; exact demo_false) (by rw [hpar]; rfl) (by rw [hran]; rfl)
    (by rw [hreg]; intro h; cases h) (data_base (nm := cs!"tr.txt") (by decide)) zoo_args .one in_pkl tr_read tr_triples (by decide)
    zoo_fits zoo_usable demo_out (by rw [demoFs_dirs]; decide)
  obtain ⟨obj, q1, q2, q3⟩ := C77_refuted h1 (h2 docTrain[2] (by decide)) (Or.inl rfl) (h2 docTrain[0] (by decide))
    (data_base (nm := cs!"tr.txt") (by decide)) (h2 docTrain[1] (by decide)) hreg (by rw [hic]; exact demo_false) k1
  exact ⟨fs', obj, k1, q1, q2, q3⟩

/-- `-m full_add -r ridge --crossvalidation=True`: the grid has values up to 5. -/
example : ∃ fs' ic first args phrase data obj,
    mainTrain demo demoFs (baseArgv cs!"full_add" ++ [cs!"-r", cs!"ridge", cs!"--crossvalidation=True"]) = .ok fs' ∧
    Trained demo.env (fun l => ∃ p, l = .ridge ic true lambdaGrid p) first args phrase data cs!"full_add" obj ∧
    fs'.read cs!"/out/x/TRAINED_COMP_MODEL.full_add.tr.txt.pkl" = .ok (demo.dump obj) := by
  obtain ⟨st, h1, h2⟩ := line_parses cs!"full_add" [⟨docTrain[3], .shortSep 'r', cs!"ridge"⟩, ⟨trainOpts[0], .longEq, cs!"True"⟩]
    (by
      intro g hg
      simp only [List.mem_cons, List.not_mem_nil, or_false] at hg
      rcases hg with rfl | rfl <;> simp [Given.Valid, docTrain, trainOpts, docCrossvalidation])
  have hcv : st cs!"crossvalidation" = .str cs!"True" := h2 trainOpts[0] (by decide)
  have hic : st cs!"intercept" = .str cs!"True" := h2 docTrain[4] (by decide)
  have hex : st cs!"export_params" = .str cs!"False" := h2 docTrain[9] (by decide)
  have hpar : st cs!"param" = .none := h2 docTrain[5] (by decide)
  have hran : st cs!"param_range" = .none := h2 docTrain[6] (by decide)
  obtain ⟨fs', obj, k1, k2, k3⟩ := C133_main_train (cv := true) (ic := true) (lam := none) (range := none) demo_ideal h1
    (h2 docTrain[10] (by decide)) (h2 docTrain[0] (by decide)) (h2 docTrain[1] (by decide)) (h2 docTrain[2] (by decide))
    (h2 docTrain[7] (by decide)) (h2 docTrain[8] (by decide)) (by rw [hcv]; exact demo_true) (by rw [hic]; exact demo_true)
    (by rw [hex]; exact demo_false) (by rw [hpar]; rfl) (by rw [hran]; rfl)
    (by intro _ h; cases h) (data_base (nm := cs!"tr.txt") (by decide)) zoo_args .one in_pkl tr_read tr_triples (by decide)
    zoo_fits zoo_usable demo_out (by rw [demoFs_dirs]; decide)
  obtain ⟨ic, first, args, phrase, data, obj, q1, q2, _⟩ := C68_refuted_lambda_range h1 (h2 docTrain[3] (by decide))
    (by rw [hcv]; exact demo_true) (h2 docTrain[2] (by decide)) (Or.inl rfl) (h2 docTrain[0] (by decide))
    (data_base (nm := cs!"tr.txt") (by decide)) (h2 docTrain[1] (by decide)) (by rw [hran]; rfl) k1
  exact ⟨fs', ic, first, args, phrase, data, obj, k1, q1, q2⟩

/-- `-r ridge` without a `--lambda`: exit status 1. -/
example : mainTrain demo demoFs (baseArgv cs!"full_add" ++ [cs!"-r", cs!"ridge"]) = .error (.exit 1) := by
  obtain ⟨st, h1, h2⟩ := line_parses cs!"full_add" [⟨docTrain[3], .shortSep 'r', cs!"ridge"⟩]
    (by
      intro g hg
      simp only [List.mem_singleton] at hg
      subst hg
      simp [Given.Valid, docTrain, trainOpts])
  have hlog : st cs!"log_file" = .none := h2 docTrain[10] (by decide)
  have hcv : st cs!"crossvalidation" = .str cs!"False" := h2 trainOpts[0] (by decide)
  have hic : st cs!"intercept" = .str cs!"True" := h2 docTrain[4] (by decide)
  have hex : st cs!"export_params" = .str cs!"False" := h2 docTrain[9] (by decide)
  have hpar : st cs!"param" = .none := h2 docTrain[5] (by decide)
  have hran : st cs!"param_range" = .none := h2 docTrain[6] (by decide)
  exact C69_no_lambda_partial (fs1 := demoFs) (ic := true) (ex := false) h1 (by rw [hlog]; rfl) (h2 docTrain[3] (by decide))
    (by rw [hcv]; exact demo_false) (by rw [hic]; exact demo_true) (by rw [hex]; exact demo_false) (h2 docTrain[2] (by decide))
    (h2 docTrain[0] (by decide)) (h2 docTrain[1] (by decide)) (h2 docTrain[7] (by decide)) (h2 docTrain[8] (by decide))
    (by rw [hpar]; rfl) (by rw [hran]; rfl)

/-- `-r ridge --lambda_range=0,1`: no model is stored. -/
example (fs' : Fs) : mainTrain demo demoFs (baseArgv cs!"full_add" ++ [cs!"-r", cs!"ridge", cs!"--lambda_range=0,1"]) ≠ .ok fs' := by
  obtain ⟨st, h1, h2⟩ := line_parses cs!"full_add" [⟨docTrain[3], .shortSep 'r', cs!"ridge"⟩, ⟨docTrain[6], .longEq, cs!"0,1"⟩]
    (by
      intro g hg
      simp only [List.mem_cons, List.not_mem_nil, or_false] at hg
      rcases hg with rfl | rfl <;> simp [Given.Valid, docTrain, trainOpts])
  have hcv : st cs!"crossvalidation" = .str cs!"False" := h2 trainOpts[0] (by decide)
  exact C69_refuted (s := cs!"0") (ss := [cs!"1"]) h1 (h2 docTrain[3] (by decide)) (by rw [hcv]; exact demo_false)
    (h2 docTrain[2] (by decide)) (Or.inl rfl) (h2 docTrain[6] (by decide)) fs'

/-- `-m FullAdditive`, a name of the usage text: no model is stored. -/
example (fs' : Fs) : mainTrain demo demoFs (baseArgv cs!"FullAdditive") ≠ .ok fs' := by
  obtain ⟨st, h1, h2⟩ := line_parses cs!"FullAdditive" [] (by intro g hg; cases hg)
  rw [List.map_nil, List.flatten_nil, List.append_nil] at h1
  exact C78_refuted h1 (h2 docTrain[2] (by decide)) (by decide) fs'

/-! ## `train_composition` -/

example : ∃ fs' : Fs, ∃ first args phrase txt data obj, ArgsFrom demo demoFs [cs!"/data/in.pkl"] first args ∧
    HoldsSpace demo demoFs cs!"/data/in.pkl" phrase ∧ demoFs.read cs!"/data/tr.txt" = .ok txt ∧ TriplesOf txt data ∧
    Trained demo.env (DocLearner (some cs!"ridge") false true (some 2) none) first args phrase data cs!"lexical_func" obj ∧
    fs'.read cs!"/out/x/TRAINED_COMP_MODEL.lexical_func.tr.txt.pkl" = .ok (demo.dump obj) := by
  obtain ⟨fs', obj, h1, _⟩ := demo_train cs!"lexical_func" (by decide)
  exact ⟨fs', C76_saves (data_base (nm := cs!"tr.txt") (by decide)) h1⟩

/-- The input is not changed. -/
example : ∃ fs', trainModel demo demoFs cs!"/data/tr.txt" cs!"/out/x" cs!"dilation" [cs!"/data/in.pkl"] cs!"/data/in.pkl"
      (some cs!"ridge") false true (.num 2) none false = .ok fs' ∧
    fs'.read cs!"/data/tr.txt" = .ok cs!"dog cat dog\n\ncat dog cat\n" := by
  obtain ⟨fs', obj, h1, _⟩ := demo_train cs!"dilation" (by decide)
  refine ⟨fs', h1, (C76_other_files (data_base (nm := cs!"tr.txt") (by decide)) h1 (by decide) ?_).trans tr_read⟩
  intro h; cases h

example : trainModel demo demoFs cs!"/data/tr.txt" cs!"/out/x" cs!"FullAdditive" [cs!"/data/in.pkl"] cs!"/data/in.pkl"
    none false true .none none false = .error .valueError :=
  C76_unknown_model zoo_args in_pkl (by decide)

/-- No sample has vectors: the words of `/data/pairs.txt` read as triples are `(1, dog, cat)` and `(0, cat, unicorn)`. -/
example : trainModel demo demoFs cs!"/data/pairs.txt" cs!"/out/x" cs!"full_add" [cs!"/data/in.pkl"] cs!"/data/in.pkl"
    none false true .none none false = .error .valueError := by
  refine (C133_train_refuses (txt := cs!"1 dog cat\n\n  0 cat unicorn \n")
    (data := [(cs!"1", cs!"dog", cs!"cat"), (cs!"0", cs!"cat", cs!"unicorn")]) zoo_args .one in_pkl rfl ?_ (by decide)
    ⟨zoo_wf, zoo_wf, zoo_wf⟩ ?_ (by intro h; cases h)).trans ?_
  · show List.Forall₂ _ [[cs!"1", cs!"dog", cs!"cat"], [cs!"0", cs!"cat", cs!"unicorn"]] _
    exact .cons ⟨[], rfl⟩ (.cons ⟨[], rfl⟩ .nil)
  · rintro ⟨t, ht, hu⟩
    simp only [List.mem_cons, List.not_mem_nil, or_false] at ht
    rcases ht with rfl | rfl
    · exact absurd hu.1 (by decide)
    · exact absurd hu.1 (by decide)
  · rw [if_neg (by simp)]

/-! ## Training, then applying -/

theorem trained_unique {env : Env} {P : Learner → Prop} (hP : ∀ l l', P l → P l' → l = l') {first phrase : Space Str}
    {args : ArgSpace Str} {data : List (Triple Str)} {m : Str} {o o' : PyObj} (h : Trained env P first args phrase data m o)
    (h' : Trained env P first args phrase data m o') : o = o' := by
  generalize hq : m = q at h h'
  cases h with
  | weighted h =>
    cases h' with
    | weighted h' => cases h.symm.trans h'; rfl
  | dilation h =>
    cases h' with
    | dilation h' => cases h.symm.trans h'; rfl
  | full hl h =>
    cases h' with
    | full hl' h' => cases hP _ _ hl hl'; cases h.symm.trans h'; rfl
  | lexical hl h =>
    cases h' with
    | lexical hl' h' => cases hP _ _ hl hl'; cases h.symm.trans h'; rfl

theorem in_pkl_any (M : PyObj) : HoldsSpace (demoLib zoo M) demoFs cs!"/data/in.pkl" zoo :=
  ⟨cs!"S", rfl, by simp [demoLib]⟩

theorem args_any (M : PyObj) : ArgsFrom (demoLib zoo M) demoFs [cs!"/data/in.pkl"] zoo (.one zoo) := .one (in_pkl_any M) (by simp)

theorem pickles {M : PyObj} (h : ∀ s, M ≠ .space s) : (demoLib zoo M).undump ((demoLib zoo M).dump M) = some M := by
  simp [demoLib, h]

theorem doc_unique {l l' : Learner} (h : DocLearner none false true none none l) (h' : DocLearner none false true none none l') :
    l = l' := by
  cases h; cases h'; rfl

/-- The triples of `/data/tr.txt`. -/
def trData : List (Triple Str) := [(cs!"dog", cs!"cat", cs!"dog"), (cs!"cat", cs!"dog", cs!"cat")]

/-- For every model there is a library in which the model trained on `/data/tr.txt` survives pickling: train the model, then
compose the phrases of the same file with it. -/
theorem train_apply (m : Str) (hm : m ∈ trainableModels) : ∃ M fs1 fs2 cls res,
    Trained idealEnv (DocLearner none false true none none) zoo (.one zoo) zoo trData m M ∧
    trainModel (demoLib zoo M) demoFs cs!"/data/tr.txt" cs!"/out/x" m [cs!"/data/in.pkl"] cs!"/data/in.pkl" none false true .none
      none false = .ok fs1 ∧
    applyModel (demoLib zoo M) fs1 cs!"/data/tr.txt" cs!"/out/x" none (some (trainedFile cs!"/out/x" m cs!"tr.txt" ++ cs!".pkl"))
      [cs!"/data/in.pkl"] none none none none = .ok fs2 ∧
    (m, cls) ∈ acceptedModels ∧
    fs2.read (composedFile cs!"/out/x" cls cs!"tr.txt" ++ cs!".pkl") = .ok ((demoLib zoo M).dump (.space res)) ∧
    res.id2row = [cs!"dog", cs!"cat"] := by
  obtain ⟨M, hM⟩ := trained_total (model := m) (args := .one zoo) (l := .lstsq true) idealEnv_ideal hm .one zoo_fits
    (zoo_usable (m := m)) (fun _ => Or.inl ⟨_, rfl⟩)
  have hM' : Trained idealEnv (DocLearner none false true none none) zoo (.one zoo) zoo trData m M :=
    hM.mono fun l hl => by rw [hl]; exact .default (by simp) (by simp)
  have hns : ∀ s, M ≠ .space s := by
    intro s h
    subst h
    cases hM'
  have hcomp : composable m zoo zoo zoo trData zoo zoo trData = trData := by
    simp only [trainableModels, List.mem_cons, List.not_mem_nil, or_false] at hm
    unfold composable
    rw [List.filter_eq_self]
    intro t ht
    simp only [trData, List.mem_cons, List.not_mem_nil, or_false] at ht
    rcases hm with rfl | rfl | rfl | rfl
    · rcases ht with rfl | rfl <;> decide
    · rcases ht with rfl | rfl <;> decide
    · rcases ht with rfl | rfl <;> decide
    · rw [if_pos rfl]
      simp only [decide_eq_true_eq]
      rcases ht with rfl | rfl
      · exact ⟨⟨_, List.mem_cons_self, rfl, by rw [UsableSample, if_pos rfl]; decide⟩, by decide⟩
      · exact ⟨⟨_, List.mem_cons_of_mem _ List.mem_cons_self, rfl, by rw [UsableSample, if_pos rfl]; decide⟩, by decide⟩
  obtain ⟨fs1, fs2, cls, res, h1, h2, h3, h4, _, h5, _⟩ := C133_train_then_apply (L := demoLib zoo M) (param := .none) (range := none)
    (regression := none) (cv := false) (ic := true) (alpha := none) (beta := none) (lam := none) idealEnv_ideal
    (data_base (nm := cs!"tr.txt") (by decide)) (args_any M) .one (in_pkl_any M) tr_read tr_triples hm zoo_fits
    (by show [3] ≠ []; decide) zoo_usable
    (by intro h; cases h) demo_out
    (by
      rw [demoFs_dirs]
      simp only [trainableModels, List.mem_cons, List.not_mem_nil, or_false] at hm
      rcases hm with rfl | rfl | rfl | rfl <;> decide)
    (by
      intro obj hobj
      have : obj = M := trained_unique (fun l l' => doc_unique) hobj hM'
      subst this
      exact pickles hns)
    (data_base (nm := cs!"tr.txt") (by decide)) (args_any M) .one tr_read tr_triples
    (by
      intro f hf
      simp only [trainableModels, List.mem_cons, List.not_mem_nil, or_false] at hm hf
      rcases hm with rfl | rfl | rfl | rfl <;> rcases hf with rfl | rfl <;> decide)
    zoo_wf zoo_wf rfl rfl (by rw [show [_, _] = trData from rfl, hcomp]; decide) (by rw [show [_, _] = trData from rfl, hcomp]; decide)
    (by
      intro cls hc
      rw [demoFs_dirs]
      simp only [acceptedModels, List.mem_cons, List.not_mem_nil, or_false, Prod.mk.injEq] at hc
      rcases hc with ⟨_, rfl⟩ | ⟨_, rfl⟩ | ⟨_, rfl⟩ | ⟨_, rfl⟩ <;> decide)
  refine ⟨M, fs1, fs2, cls, res, hM', h1, h2, h3, h4, ?_⟩
  rw [h5, show [_, _] = trData from rfl, hcomp]
  rfl

/-- The same two runs through the theorem on chains of runs. -/
example : ∃ (M : PyObj) (fs1 fs2 : Fs),
    trainModel (demoLib zoo M) demoFs cs!"/data/tr.txt" cs!"/out/x" cs!"lexical_func" [cs!"/data/in.pkl"] cs!"/data/in.pkl" none false
      true .none none false = .ok fs1 ∧
    ∃ obj cls first' args' txt' data' res, ClassOf obj cls ∧ ArgsFrom (demoLib zoo M) fs1 [cs!"/data/in.pkl"] first' args' ∧
      fs1.read cs!"/data/tr.txt" = .ok txt' ∧ TriplesOf txt' data' ∧ ComposedBy first' args' data' res obj ∧
      fs2.read (composedFile cs!"/out/x" cls cs!"tr.txt" ++ cs!".pkl") = .ok ((demoLib zoo M).dump (.space res)) := by
  obtain ⟨M, fs1, fs2, cls, res, hM, h1, h2, _⟩ := train_apply cs!"lexical_func" (by decide)
  have hns : ∀ s, M ≠ .space s := by
    intro s h
    subst h
    cases hM
  have hb : IsBase cs!"/data/tr.txt" cs!"tr.txt" := data_base (nm := cs!"tr.txt") (by decide)
  have key : ∀ o, fs1.read (trainedFile cs!"/out/x" cs!"lexical_func" cs!"tr.txt" ++ cs!".pkl") = .ok ((demoLib zoo M).dump o) →
      (demoLib zoo M).dump o = cs!"M" := by
    intro o ho
    obtain ⟨fs1', obj, k1, k2, k3⟩ := C133_train_succeeds (L := demoLib zoo M) (model := cs!"lexical_func") (outDir := cs!"/out/x")
      (param := .none) (range := none)
      (regression := none) (cv := false) (ic := true) idealEnv_ideal hb (args_any M) .one (in_pkl_any M) tr_read tr_triples
      (by decide) zoo_fits zoo_usable (by intro h; cases h) demo_out (by rw [demoFs_dirs]; decide)
    rw [h1] at k1
    obtain rfl := ok_inj k1
    rw [k3] at ho
    rw [← ok_inj ho, trained_unique (fun l l' => doc_unique) k2 hM]
    simp [demoLib, hns]
  have hinj : ∀ o, (demoLib zoo M).dump o = cs!"M" → o = M := by
    intro o ho
    simp only [demoLib] at ho
    split at ho
    · cases ho
    · split at ho
      · assumption
      · cases ho
  obtain ⟨first, args, phrase, txt, data, obj, _, _, _, _, _, q⟩ := C80_chain (fs2 := fs1)
    (by intro o ho; rw [hinj o (key o ho)]; exact pickles hns) hb h1 rfl hb h2
  exact ⟨M, fs1, fs2, h1, obj, q⟩

end Examples
end
end Dissect
