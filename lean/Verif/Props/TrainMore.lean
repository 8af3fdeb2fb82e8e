import Verif.Props.ApplyComp
import Verif.Props.TrainCompose
import Verif.Props.SimsTotal

/-! # C76 (success), C77, C78: `train_composition.py` -/

namespace Dissect
noncomputable section

/-- With a number where ridge regression needs one, the learner can be created, and it is the documented one. -/
theorem makeLearner_complete {regression : Option Str} {cv ic : Bool} {param : ParamVal} {range : Option (List ℝ)}
    (hr : regression = some cs!"ridge" → cv = false → ∃ x, param = .num x) :
    ∃ l, makeLearner regression cv ic param range = .ok l ∧ DocLearner regression cv ic param.number range l := by
  have key : ∃ l, makeLearner regression cv ic param range = .ok l := by
    unfold makeLearner
    by_cases h1 : regression = some cs!"ridge"
    · rw [if_pos h1]
      have hv : ∀ a b : Option ℝ, assertValidKwargs ["crossvalidation", "intercept", "param", "param_range"]
          ["intercept", "param_range", "crossvalidation", "param"] = .ok () := by intro _ _; decide
      cases param with
      | none =>
        cases cv with
        | false => obtain ⟨x, hx⟩ := hr h1 rfl; cases hx
        | true =>
          simp only [Learner.newRidge]
          rw [hv none none]
          exact ⟨_, rfl⟩
      | num x =>
        simp only [Learner.newRidge]
        rw [hv none none]
        simp
      | text s => exact ⟨_, rfl⟩
    · rw [if_neg h1]
      split
      · exact ⟨_, rfl⟩
      · exact ⟨_, rfl⟩
  obtain ⟨l, hl⟩ := key
  refine ⟨l, hl, ?_⟩
  rcases makeLearner_doc hl with h | ⟨h1, h2, ⟨s, h3⟩, _⟩
  · exact h
  · obtain ⟨x, hx⟩ := hr h1 h2
    rw [h3] at hx; cases hx

/-- The models that use a regression learner. -/
def usesLearner (model : Str) : Prop := model = cs!"full_add" ∨ model = cs!"lexical_func"

theorem trained_full {env : Env} {P : Learner → Prop} {first phrase : Space Str} {args : ArgSpace Str}
    {data : List (Triple Str)} {obj : PyObj} (h : Trained env P first args phrase data cs!"full_add" obj) :
    ∃ l c, P l ∧ Composer.train env (newFullAdditiveLearner l) data args phrase = .ok c ∧ obj = .composer c := by
  generalize hmn : cs!"full_add" = mn at h
  cases h with
  | weighted _ => simp at hmn
  | dilation _ => simp at hmn
  | full h1 h2 => exact ⟨_, _, h1, h2, rfl⟩
  | lexical _ _ => simp at hmn

theorem trained_lexical {env : Env} {P : Learner → Prop} {first phrase : Space Str} {args : ArgSpace Str}
    {data : List (Triple Str)} {obj : PyObj} (h : Trained env P first args phrase data cs!"lexical_func" obj) :
    ∃ l m, P l ∧ LexFun.train env strLe (LexFun.ofLearner l) data first phrase = .ok m ∧ obj = .lexfun m := by
  generalize hmn : cs!"lexical_func" = mn at h
  cases h with
  | weighted _ => simp at hmn
  | dilation _ => simp at hmn
  | full h1 h2 => simp at hmn
  | lexical h1 h2 => exact ⟨_, _, h1, h2, rfl⟩

theorem trained_names {env : Env} {P : Learner → Prop} {first phrase : Space Str} {args : ArgSpace Str}
    {data : List (Triple Str)} {obj : PyObj} {model : Str} (h : Trained env P first args phrase data model obj) :
    (model = cs!"weighted_add" ∧ ∃ c, Composer.train env ⟨.weighted (1 / 2) (1 / 2), none⟩ data args phrase = .ok c ∧ obj = .composer c) ∨
    (model = cs!"dilation" ∧ ∃ c, Composer.train env ⟨.dilation 2, none⟩ data args phrase = .ok c ∧ obj = .composer c) ∨
    model = cs!"full_add" ∨ model = cs!"lexical_func" := by
  cases h with
  | weighted h => exact Or.inl ⟨rfl, _, h, rfl⟩
  | dilation h => exact Or.inr (Or.inl ⟨rfl, _, h, rfl⟩)
  | full h1 h2 => exact Or.inr (Or.inr (Or.inl rfl))
  | lexical h1 h2 => exact Or.inr (Or.inr (Or.inr rfl))

theorem trainObj_complete {L : Lib} {fs : Fs} {inFile model txt : Str} {arg : Space Str} {arg2 : Option (Space Str)}
    {phrase : Space Str} {regression : Option Str} {cv ic : Bool} {param : ParamVal} {range : Option (List ℝ)}
    {data : List (Triple Str)} (hr : fs.read inFile = .ok txt) (ht : TriplesOf txt data)
    (hlam : usesLearner model → regression = some cs!"ridge" → cv = false → ∃ x, param = .num x)
    (htrain : ∀ l, (usesLearner model → DocLearner regression cv ic param.number range l) →
      ∃ obj, Trained L.env (· = l) arg (argsOf arg arg2) phrase data model obj) :
    ∃ obj, trainObj L model arg arg2 phrase regression cv ic param range (fs.read inFile) = .ok obj := by
  have hread : (fs.read inFile).bind readTriples = .ok data := by
    rw [hr]; exact readTriples_ok.2 ht
  have hgen : ∀ args, args = argsOf arg arg2 → ∃ obj, trainObj L model arg arg2 phrase regression cv ic param range (fs.read inFile) = .ok obj := by
    intro args hargs
    rw [← hargs] at htrain
    by_cases hu : usesLearner model
    · obtain ⟨l, hl, hd⟩ := makeLearner_complete (range := range) (ic := ic) (hlam hu)
      obtain ⟨obj, ho⟩ := htrain l (fun _ => hd)
      rcases hu with rfl | rfl
      · obtain ⟨_, c, rfl, h2, _⟩ := trained_full ho
        refine ⟨.composer c, ?_⟩
        unfold trainObj
        rw [if_neg (by decide), if_neg (by decide), if_pos rfl]
        cases arg2 <;> (subst hargs; simp only [argsOf] at h2; simp only [hl, hread, ok_bind, h2, pure_eq_ok])
      · obtain ⟨_, c, rfl, h2, _⟩ := trained_lexical ho
        refine ⟨.lexfun c, ?_⟩
        unfold trainObj
        rw [if_neg (by decide), if_neg (by decide), if_neg (by decide), if_pos rfl]
        simp only [hl, hread, ok_bind, h2, pure_eq_ok]
    · obtain ⟨obj, ho⟩ := htrain (.lstsq true) (fun h => absurd h hu)
      rcases trained_names ho with ⟨rfl, c, h2, _⟩ | ⟨rfl, c, h2, _⟩ | h
      · refine ⟨.composer c, ?_⟩
        unfold trainObj
        rw [if_pos rfl]
        cases arg2 <;> (subst hargs; simp only [argsOf] at h2; simp only [newWeighted, hread, ok_bind, h2, pure_eq_ok])
      · refine ⟨.composer c, ?_⟩
        unfold trainObj
        rw [if_neg (by decide), if_pos rfl]
        cases arg2 <;> (subst hargs; simp only [argsOf] at h2; simp only [newDilation, hread, ok_bind, h2, pure_eq_ok])
      · exact absurd h hu
  exact hgen _ rfl

/-- **C76** Without parameter export the run succeeds whenever the spaces and triples can be read, the requested model can
be trained on them, a parameter is given if ridge regression without cross validation needs one, and the output directory
exists or can be created. -/
theorem C76_succeeds {L : Lib} {fs : Fs} {inFile base outDir model phraseFile txt : Str} {argFiles : List Str}
    {regression : Option Str} {cv ic : Bool} {param : ParamVal} {range : Option (List ℝ)} {first phrase : Space Str}
    {args : ArgSpace Str} {data : List (Triple Str)} (hb : IsBase inFile base)
    (ha : ArgsFrom L fs argFiles first args) (hp : HoldsSpace L fs phraseFile phrase)
    (hr : fs.read inFile = .ok txt) (ht : TriplesOf txt data)
    (hlam : usesLearner model → regression = some cs!"ridge" → cv = false → ∃ x, param = .num x)
    (htrain : ∀ l, (usesLearner model → DocLearner regression cv ic param.number range l) →
      ∃ obj, Trained L.env (· = l) first args phrase data model obj)
    (ho : OutDir fs (fs.resolve (outDir ++ ['/'])))
    (hfree : fs.resolve (trainedFile outDir model base ++ cs!".pkl") ∉ fs.dirs) :
    ∃ fs', trainModel L fs inFile outDir model argFiles phraseFile regression cv ic param range false = .ok fs' := by
  have hf : ∃ f gs, argFiles = f :: gs := by cases ha <;> exact ⟨_, _, rfl⟩
  obtain ⟨f, gs, rfl⟩ := hf
  obtain ⟨o, l1, l2, rfl⟩ := argsFrom_second ha
  obtain ⟨obj, hobj⟩ := trainObj_complete (L := L) (fs := fs) hr ht hlam htrain
  have hms : '/' ∉ model := by
    obtain ⟨_, _, _, _, h⟩ := trainObj_ok hobj
    cases h <;> decide
  have hq : trainedFile outDir model base ++ cs!".pkl" =
      outDir ++ '/' :: (cs!"TRAINED_COMP_MODEL." ++ model ++ ['.'] ++ base ++ cs!".pkl") := by simp [trainedFile]
  have hbn := hb.1
  rw [hq] at hfree
  obtain ⟨fs', hs, _⟩ := ho.save (nm := cs!"TRAINED_COMP_MODEL." ++ model ++ ['.'] ++ base ++ cs!".pkl") (c := L.dump obj)
    (by simp [hms, hbn]) (by simp) (by simp) hfree
  refine ⟨fs', ?_⟩
  unfold trainModel
  simp only [l1, l2, loadSpace_ok.2 hp, hobj, ok_bind, trainedFile_eq hb, hq, hs]
  rfl

/-! ### C77 -/

/-- The intercept flags a stored model carries: that of the model and that of its learner. -/
def StoredIntercept (o : PyObj) (b : Bool) : Prop :=
  match o with
  | .composer ⟨.fullAdditive _ _ i (some l), _⟩ => i = b ∧ l.hasIntercept = b
  | .lexfun m => m.intercept = b ∧ m.learner.hasIntercept = b
  | _ => False

theorem stored_full {env : Env} {l : Learner} {data : List (Triple Str)} {args : ArgSpace Str} {phrase : Space Str}
    {c : Composer Str} (h : Composer.train env (newFullAdditiveLearner l) data args phrase = .ok c) :
    StoredIntercept (.composer c) l.hasIntercept := by
  replace h := (Composer.train_inv h).2
  simp only [Composer.trainShared, newFullAdditiveLearner, bind_eq_ok] at h
  obtain ⟨⟨s1, s2⟩, _, ⟨l1, l2, l3⟩, _, m, h3, h4⟩ := h
  simp only [CModel.trainOn, bind_eq_ok, trainFull] at h3
  obtain ⟨⟨m1, m2, mp⟩, _, hh, _, r, _, ⟨a, b⟩, _, h5⟩ := h3
  obtain rfl := ok_inj h4
  obtain rfl := ok_inj h5
  exact ⟨rfl, rfl⟩

theorem stored_lexical {env : Env} {l : Learner} {data : List (Triple Str)} {arg phrase : Space Str}
    {m : LexFun Str} (h : LexFun.train env strLe (LexFun.ofLearner l) data arg phrase = .ok m) :
    StoredIntercept (.lexfun m) l.hasIntercept := by
  simp only [LexFun.train, bind_eq_ok, LexFun.ofLearner] at h
  obtain ⟨⟨fl, al, pl⟩, _, ⟨keys, ranges⟩, _, h⟩ := h
  split at h
  · cases h
  · split at h
    · rw [bind_eq_ok] at h
      obtain ⟨rs, _, h⟩ := h
      split at h
      · cases h
      · simp only [bind_eq_ok] at h
        obtain ⟨mat, _, fs, _, h⟩ := h
        obtain rfl := ok_inj h
        exact ⟨rfl, rfl⟩
    · cases h

theorem stored_unique {o : PyObj} {a b : Bool} (h1 : StoredIntercept o a) (h2 : StoredIntercept o b) : a = b := by
  unfold StoredIntercept at h1 h2
  split at h1
  · exact h1.1.symm.trans h2.1
  · exact h1.1.symm.trans h2.1
  · exact h1.elim

/-- What a successful run stores, in terms of the options. -/
theorem mainTrain_saves {L : Lib} {fs fs' : Fs} {argv : List Str} {st : Settings} {model inFile base outDir : Str} {ic : Bool}
    (hst : cliTrain.parseArgs L.parseCfg fs argv = .ok st) (hm : st cs!"model" = .str model)
    (hi : st cs!"in_file" = .str inFile) (hb : IsBase inFile base) (ho : st cs!"out_dir" = .str outDir)
    (hic : L.evalBool (st cs!"intercept").strD = .ok (some ic)) (h : mainTrain L fs argv = .ok fs') :
    ∃ cv lam range first args phrase data obj,
      Trained L.env (DocLearner (st cs!"regression").asStr cv ic lam range) first args phrase data model obj ∧
      fs'.read (trainedFile outDir model base ++ cs!".pkl") = .ok (L.dump obj) := by
  obtain ⟨st', fs1, i, o, m, a, p, cv, ic', ex, param, range, h1, h2, h3, h4, h5, h6, h7, h8, h9, h10, h11, h12, h13⟩ :=
    mainTrain_ok h
  rw [hst] at h1
  injection h1 with h1; subst h1
  rw [hic] at h9
  simp only [Except.ok.injEq, Option.some.injEq] at h9
  subst h9
  rw [hi] at h3; rw [ho] at h4; rw [hm] at h5
  simp only [OptVal.asStr, Option.some.injEq] at h3 h4 h5
  subst h3 h4 h5
  obtain ⟨first, args, phrase, txt, data, obj, a1, a2, a3, a4, a5, a6⟩ := C76_saves hb h13
  exact ⟨cv, param.number, range, first, args, phrase, data, obj, a5, a6⟩

theorem trained_intercept {env : Env} {P : Learner → Prop} {first phrase : Space Str} {args : ArgSpace Str}
    {data : List (Triple Str)} {obj : PyObj} {model : Str} {ic : Bool} (hu : usesLearner model)
    (hP : ∀ l, P l → l.hasIntercept = ic) (h : Trained env P first args phrase data model obj) : StoredIntercept obj ic := by
  rcases hu with rfl | rfl
  · obtain ⟨l, c, h1, h2, rfl⟩ := trained_full h
    rw [← hP l h1]; exact stored_full h2
  · obtain ⟨l, m, h1, h2, rfl⟩ := trained_lexical h
    rw [← hP l h1]; exact stored_lexical h2

/-- **C77** (partial: when `-r` is given; see the refutation). For the two models that use a learner, the stored model and
its learner have an intercept iff `--intercept` is true. -/
theorem C77_with_regression_partial {L : Lib} {fs fs' : Fs} {argv : List Str} {st : Settings}
    {model inFile base outDir r : Str} {ic : Bool}
    (hst : cliTrain.parseArgs L.parseCfg fs argv = .ok st) (hm : st cs!"model" = .str model) (hu : usesLearner model)
    (hi : st cs!"in_file" = .str inFile) (hb : IsBase inFile base) (ho : st cs!"out_dir" = .str outDir)
    (hr : st cs!"regression" = .str r) (hrr : r = cs!"ridge" ∨ r = cs!"lstsq")
    (hic : L.evalBool (st cs!"intercept").strD = .ok (some ic)) (h : mainTrain L fs argv = .ok fs') :
    ∃ obj, fs'.read (trainedFile outDir model base ++ cs!".pkl") = .ok (L.dump obj) ∧ StoredIntercept obj ic := by
  obtain ⟨cv, lam, range, first, args, phrase, data, obj, a1, a2⟩ := mainTrain_saves hst hm hi hb ho hic h
  refine ⟨obj, a2, trained_intercept hu (fun l hl => ?_) a1⟩
  rw [hr, asStr_str] at hl
  generalize hq : some r = q at hl
  cases hl with
  | ridgeCv p => rfl
  | ridge => rfl
  | lstsq => rfl
  | default n1 n2 =>
    subst hq
    rcases hrr with rfl | rfl
    · exact absurd rfl n1
    · exact absurd rfl n2

/-- **C77** refuted: without `-r` (default documented as `lstsq`), every successful run with `--intercept=False` for a
model that uses a learner stores a model with an intercept. -/
theorem C77_refuted {L : Lib} {fs fs' : Fs} {argv : List Str} {st : Settings} {model inFile base outDir : Str}
    (hst : cliTrain.parseArgs L.parseCfg fs argv = .ok st) (hm : st cs!"model" = .str model) (hu : usesLearner model)
    (hi : st cs!"in_file" = .str inFile) (hb : IsBase inFile base) (ho : st cs!"out_dir" = .str outDir)
    (hr : st cs!"regression" = .none)
    (hic : L.evalBool (st cs!"intercept").strD = .ok (some false)) (h : mainTrain L fs argv = .ok fs') :
    ∃ obj, fs'.read (trainedFile outDir model base ++ cs!".pkl") = .ok (L.dump obj) ∧ StoredIntercept obj true ∧
      ¬ StoredIntercept obj false := by
  obtain ⟨cv, lam, range, first, args, phrase, data, obj, a1, a2⟩ := mainTrain_saves hst hm hi hb ho hic h
  have : StoredIntercept obj true := by
    refine trained_intercept hu (fun l hl => ?_) a1
    rw [hr] at hl
    generalize hq : (OptVal.none).asStr = q at hl
    cases hl with
    | ridgeCv p => cases hq
    | ridge => cases hq
    | lstsq => cases hq
    | default n1 n2 => rfl
  exact ⟨obj, a2, this, fun hf => by cases stored_unique this hf⟩

/-- A command line that meets the hypotheses of `C77_refuted` about the options. -/
example (parse : Str → Py Config) (fs : Fs) : ∃ st, cliTrain.parseArgs parse fs
    [cs!"-i", cs!"data.txt", cs!"-o", cs!"out", cs!"-m", cs!"full_add", cs!"--intercept=False",
      cs!"-a", cs!"a.pkl", cs!"-p", cs!"p.pkl"] = .ok st ∧ st cs!"model" = .str cs!"full_add" ∧
      st cs!"in_file" = .str cs!"data.txt" ∧ st cs!"out_dir" = .str cs!"out" ∧ st cs!"regression" = .none ∧
      (st cs!"intercept").strD = cs!"False" := by
  obtain ⟨st, h1, h2⟩ := parse_values trainOpts_ok parse fs
    [⟨docTrain[0], .shortSep 'i', cs!"data.txt"⟩, ⟨docTrain[1], .shortSep 'o', cs!"out"⟩,
      ⟨docTrain[2], .shortSep 'm', cs!"full_add"⟩, ⟨docTrain[4], .longEq, cs!"False"⟩,
      ⟨docTrain[7], .shortSep 'a', cs!"a.pkl"⟩, ⟨docTrain[8], .shortSep 'p', cs!"p.pkl"⟩]
    (by
      intro g hg
      simp only [List.mem_cons, List.not_mem_nil, or_false] at hg
      rcases hg with rfl | rfl | rfl | rfl | rfl | rfl <;> simp [Given.Valid, docTrain, trainOpts])
    [] (by intro a ha; cases ha) (fun _ => none) rfl
  refine ⟨st, h1, h2 docTrain[2] (by decide), h2 docTrain[0] (by decide), h2 docTrain[1] (by decide),
    h2 docTrain[3] (by decide), ?_⟩
  rw [show st cs!"intercept" = .str cs!"False" from h2 docTrain[4] (by decide)]
  rfl

/-! ### C78 -/

/-- The names of the usage text (`train_composition.py:47-48`). -/
def documentedModels : List Str := [cs!"WeightedAdditive", cs!"FullAdditive", cs!"LexicalFunction", cs!"Dilation"]

/-- The names the code accepts and the classes they stand for. -/
def acceptedModels : List (Str × Str) := [(cs!"weighted_add", cs!"WeightedAdditive"), (cs!"full_add", cs!"FullAdditive"),
  (cs!"lexical_func", cs!"LexicalFunction"), (cs!"dilation", cs!"Dilation")]

theorem train_class {env : Env} {c c' : Composer Str} {data : List (Triple Str)} {args : ArgSpace Str} {phrase : Space Str}
    (h : Composer.train env c data args phrase = .ok c') : className (.composer c') = className (.composer c) := by
  obtain ⟨m, ids⟩ := c
  replace h := (Composer.train_inv h).2
  simp only [Composer.trainShared, bind_eq_ok] at h
  obtain ⟨⟨s1, s2⟩, _, ⟨l1, l2, l3⟩, _, m', h3, h4⟩ := h
  obtain rfl := ok_inj h4
  cases m with
  | multiplicative => simp only [CModel.trainOn] at h3; cases h3
  | weighted a b =>
    simp only [CModel.trainOn, trainWeighted, bind_eq_ok] at h3
    obtain ⟨_, _, _, _, h3⟩ := h3
    obtain rfl := ok_inj h3
    rfl
  | dilation l =>
    simp only [CModel.trainOn, trainDilation, bind_eq_ok] at h3
    obtain ⟨_, _, _, _, _, _, _, _, _, _, h3⟩ := h3
    split at h3
    · obtain rfl := ok_inj h3; rfl
    · obtain rfl := ok_inj h3; rfl
  | fullAdditive a b i l =>
    simp only [CModel.trainOn, bind_eq_ok] at h3
    obtain ⟨_, _, h3⟩ := h3
    cases l with
    | none => cases h3
    | some l =>
      simp only [trainFull, bind_eq_ok] at h3
      obtain ⟨_, _, _, _, _, _, h3⟩ := h3
      obtain rfl := ok_inj h3; rfl

/-- **C78** (partial: the names the code accepts are not the documented ones, see the refutation). A successful run with one
of the accepted names stores a model of the corresponding class; and no other name is ever accepted. -/
theorem C78_accepted_partial {L : Lib} {fs fs' : Fs} {argv : List Str} {st : Settings} {model inFile base outDir : Str} {ic : Bool}
    (hst : cliTrain.parseArgs L.parseCfg fs argv = .ok st) (hm : st cs!"model" = .str model)
    (hi : st cs!"in_file" = .str inFile) (hb : IsBase inFile base) (ho : st cs!"out_dir" = .str outDir)
    (hic : L.evalBool (st cs!"intercept").strD = .ok (some ic)) (h : mainTrain L fs argv = .ok fs') :
    ∃ cls obj, (model, cls) ∈ acceptedModels ∧ ClassOf obj cls ∧
      fs'.read (trainedFile outDir model base ++ cs!".pkl") = .ok (L.dump obj) := by
  obtain ⟨cv, lam, range, first, args, phrase, data, obj, a1, a2⟩ := mainTrain_saves hst hm hi hb ho hic h
  refine ⟨className obj, obj, ?_, ?_, a2⟩
  · cases a1 with
    | weighted h => rw [train_class h]; decide
    | dilation h => rw [train_class h]; simp [acceptedModels, className]
    | full h1 h2 => rw [train_class h2]; simp [acceptedModels, className, newFullAdditiveLearner]
    | lexical h1 h2 => simp [acceptedModels, className]
  · apply classOf_total
    cases a1 with
    | weighted h => exact Or.inl ⟨_, rfl⟩
    | dilation h => exact Or.inl ⟨_, rfl⟩
    | full h1 h2 => exact Or.inl ⟨_, rfl⟩
    | lexical h1 h2 => exact Or.inr ⟨_, rfl⟩

/-- **C78** refuted: a run with any of the documented names never succeeds. -/
theorem C78_refuted {L : Lib} {fs : Fs} {argv : List Str} {st : Settings} {model : Str}
    (hst : cliTrain.parseArgs L.parseCfg fs argv = .ok st) (hm : st cs!"model" = .str model) (hd : model ∈ documentedModels)
    (fs' : Fs) : mainTrain L fs argv ≠ .ok fs' := by
  intro h
  obtain ⟨st', fs1, i, o, m, a, p, cv, ic', ex, param, range, h1, h2, h3, h4, h5, h6, h7, h8, h9, h10, h11, h12, h13⟩ :=
    mainTrain_ok h
  rw [hst] at h1
  injection h1 with h1; subst h1
  have hstr : ∀ {v : OptVal} {x : Str}, v.asStr = some x → v = .str x := by
    intro v x hv; cases v <;> simp_all [OptVal.asStr]
  obtain ⟨cls, obj, k, _⟩ := C78_accepted_partial hst hm (hstr h3) (lastComp_isBase i) (hstr h4) h9 h
  simp only [documentedModels, List.mem_cons, List.not_mem_nil, or_false] at hd
  simp only [acceptedModels, List.mem_cons, Prod.mk.injEq, List.not_mem_nil, or_false] at k
  rcases hd with rfl | rfl | rfl | rfl <;> simp at k

/-! ### The default of `--lambda_range` (C68) -/

/-- The default of `--lambda_range` according to the usage text (`train_composition.py:53-55`): `linspace(0, 0.5, 10)`, ten
equally spaced values from 0 to one half. -/
def usageGrid : List ℝ := [0, 1 / 18, 2 / 18, 3 / 18, 4 / 18, 5 / 18, 6 / 18, 7 / 18, 8 / 18, 1 / 2]

/-- Refuted part of **C68**: without `--lambda_range`, every run of ridge regression with cross validation that succeeds has
searched the eleven values from 0 to 5, not the ten values up to one half of the usage text; the model it saves is trained
with that learner. -/
theorem C68_refuted_lambda_range {L : Lib} {fs fs' : Fs} {argv : List Str} {st : Settings} {model inFile base outDir : Str}
    (hst : cliTrain.parseArgs L.parseCfg fs argv = .ok st) (hr : st cs!"regression" = .str cs!"ridge")
    (hcv : L.evalBool (st cs!"crossvalidation").strD = .ok (some true))
    (hm : st cs!"model" = .str model) (hu : usesLearner model)
    (hi : st cs!"in_file" = .str inFile) (hb : IsBase inFile base) (ho : st cs!"out_dir" = .str outDir)
    (hrange : (st cs!"param_range").asList = none) (h : mainTrain L fs argv = .ok fs') :
    ∃ ic first args phrase data obj,
      Trained L.env (fun l => ∃ p, l = .ridge ic true lambdaGrid p) first args phrase data model obj ∧
      fs'.read (trainedFile outDir model base ++ cs!".pkl") = .ok (L.dump obj) ∧
      ∀ p ic' p', Learner.ridge ic true lambdaGrid p ≠ .ridge ic' true usageGrid p' := by
  obtain ⟨st', fs1, i, o, m, a, p, cv, ic, ex, param, range, h1, h2, h3, h4, h5, h6, h7, h8, h9, h10, h11, h12, h13⟩ :=
    mainTrain_ok h
  rw [hst] at h1
  injection h1 with h1; subst h1
  rw [hcv] at h8
  simp only [Except.ok.injEq, Option.some.injEq] at h8
  subst h8
  rw [hi] at h3; rw [ho] at h4; rw [hm] at h5; rw [hr] at h12 h13
  simp only [OptVal.asStr, Option.some.injEq] at h3 h4 h5 h12 h13
  subst h3 h4 h5
  obtain ⟨lam, k1, k2, _, _⟩ := paramsOf_ok h11
  unfold NumsOpt at k2
  rw [hrange] at k2
  subst k2
  obtain ⟨first, args, phrase, txt, data, obj, a1, a2, a3, a4, a5, a6⟩ := C76_saves hb h13
  refine ⟨ic, first, args, phrase, data, obj, ?_, a6, ?_⟩
  · have hl : ∀ l, DocLearner (some cs!"ridge") true ic param.number none l → ∃ p, l = .ridge ic true lambdaGrid p := by
      intro l hd
      generalize hr : some cs!"ridge" = r at hd
      cases hd with
      | ridgeCv p => exact ⟨p, rfl⟩
      | lstsq => simp at hr
      | default hn _ => exact absurd hr.symm hn
    rcases hu with rfl | rfl
    · obtain ⟨l, c, h1, h2, rfl⟩ := trained_full a5
      exact .full (hl _ h1) h2
    · obtain ⟨l, c, h1, h2, rfl⟩ := trained_lexical a5
      exact .lexical (hl _ h1) h2
  · intro p ic' p' hne
    injection hne with _ _ hg _
    have := congrArg List.length hg
    simp [lambdaGrid, usageGrid] at this

/-! ### A concrete training run -/

/-- A file system with a space and a list of triples. -/
def exFs3 : Fs := ⟨[cs!"home"], [[], [cs!"home"], [cs!"data"]],
  ((Dict.empty).set [cs!"data", cs!"in.pkl"] cs!"S").set [cs!"data", cs!"tr.txt"] cs!"dog cat dog\n\ncat owl cat\n"⟩

theorem exFs3_keys : exFs3.files.keys = [[cs!"data", cs!"in.pkl"], [cs!"data", cs!"tr.txt"]] := rfl

theorem exFs3_ok : exFs3.Ok := by
  refine ⟨by decide, by decide, ?_, ?_, ?_⟩
  · show ∀ d ∈ [[], [cs!"home"], [cs!"data"]], d.dropLast ∈ [[], [cs!"home"], [cs!"data"]]
    decide
  · rw [exFs3_keys]
    show ∀ f ∈ [[cs!"data", cs!"in.pkl"], [cs!"data", cs!"tr.txt"]], f.dropLast ∈ [[], [cs!"home"], [cs!"data"]]
    decide
  · rw [exFs3_keys]
    show ∀ f ∈ [[cs!"data", cs!"in.pkl"], [cs!"data", cs!"tr.txt"]], f ∉ [[], [cs!"home"], [cs!"data"]]
    decide

/-- A run that meets the hypotheses of `C76_succeeds` (and so of `C76_saves`). -/
example (L : Lib) (s : Space Str) (hs : s.WF) (hm : s.mat = exMat .sparse) (hrow : s.id2row = [cs!"dog", cs!"cat"])
    (hu : L.undump cs!"S" = some (.space s)) :
    ∃ fs' lam ids, trainModel L exFs3 cs!"/data/tr.txt" cs!"/out/x" cs!"dilation" [cs!"/data/in.pkl"] cs!"/data/in.pkl" none
        false true .none none false = .ok fs' ∧
      fs'.read cs!"/out/x/TRAINED_COMP_MODEL.dilation.tr.txt.pkl" = .ok (L.dump (.composer ⟨.dilation lam, ids⟩)) := by
  have hb : IsBase cs!"/data/tr.txt" cs!"tr.txt" := ⟨by decide, Or.inr ⟨cs!"/data", rfl⟩⟩
  have hsp : HoldsSpace L exFs3 cs!"/data/in.pkl" s := ⟨cs!"S", rfl, hu⟩
  have hr : exFs3.read cs!"/data/tr.txt" = .ok cs!"dog cat dog\n\ncat owl cat\n" := rfl
  have ht : TriplesOf cs!"dog cat dog\n\ncat owl cat\n" [(cs!"dog", cs!"cat", cs!"dog"), (cs!"cat", cs!"owl", cs!"cat")] := by
    unfold TriplesOf
    have : records cs!"dog cat dog\n\ncat owl cat\n" = [[cs!"dog", cs!"cat", cs!"dog"], [cs!"cat", cs!"owl", cs!"cat"]] := rfl
    rw [this]
    exact .cons ⟨[], rfl⟩ (.cons ⟨[], rfl⟩ .nil)
  have hnc : 0 < s.mat.nc := by rw [hm]; simp [exMat, TMat.nc]
  have hv : trainTriples s s s [(cs!"dog", cs!"cat", cs!"dog"), (cs!"cat", cs!"owl", cs!"cat")] ≠ [] := by
    unfold trainTriples
    rw [hrow]
    decide
  obtain ⟨lam, hlam, _⟩ := C49_dilation L.env ⟨.dilation 2, none⟩ 2 rfl
    [(cs!"dog", cs!"cat", cs!"dog"), (cs!"cat", cs!"owl", cs!"cat")] (.one s) s s s s.mat.nc (by simp [ArgSpace.extract]) hs hs hs hnc rfl rfl rfl hv
  have hd : exFs3.dirs = [[], [cs!"home"], [cs!"data"]] := rfl
  obtain ⟨fs', h⟩ := C76_succeeds (outDir := cs!"/out/x") (model := cs!"dilation") (regression := none) (cv := false)
    (ic := true) (param := .none) (range := none) hb (.one hsp (gs := []) (by simp)) hsp hr ht
    (fun _ h => by cases h) (fun l _ => ⟨_, .dilation hlam⟩)
    ⟨exFs3_ok, by
      rw [exFs3_keys]
      show ∀ f ∈ [[cs!"data", cs!"in.pkl"], [cs!"data", cs!"tr.txt"]], ¬ f <+: [cs!"out", cs!"x"]
      decide⟩
    (by rw [hd]; decide)
  obtain ⟨first, args, phrase, txt, data, obj, a1, a2, a3, a4, a5, a6⟩ := C76_saves hb h
  have hc : ∃ lam ids, obj = .composer ⟨.dilation lam, ids⟩ := by
    rcases trained_names a5 with ⟨h, _⟩ | ⟨_, c, h, rfl⟩ | h | h
    · exact absurd h (by decide)
    · replace h := (Composer.train_inv h).2
      simp only [Composer.trainShared, bind_eq_ok, CModel.trainOn, trainDilation] at h
      obtain ⟨_, _, _, _, m, ⟨_, _, _, _, _, _, _, _, _, _, h3⟩, h4⟩ := h
      obtain rfl := ok_inj h4
      split at h3
      · obtain rfl := ok_inj h3; exact ⟨_, _, rfl⟩
      · obtain rfl := ok_inj h3; exact ⟨_, _, rfl⟩
    · exact absurd h (by decide)
    · exact absurd h (by decide)
  obtain ⟨lam', ids, rfl⟩ := hc
  exact ⟨fs', lam', ids, h, a6⟩

end
end Dissect
