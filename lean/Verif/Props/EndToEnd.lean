import Verif.Props.TrainMore
import Verif.Props.IdealTrain
import Verif.Props.TrainOrder

/-! # C133: `train_composition` and `apply_composition` from end to end, with exact numeric routines -/

namespace Dissect
noncomputable section

theorem strLe_iff {a b : Str} : strLe a b = true ↔ a ≤ b := by
  unfold strLe; simp

theorem strLe_trans (a b c : Str) (h1 : strLe a b = true) (h2 : strLe b c = true) : strLe a c = true := by
  rw [strLe_iff] at *
  exact List.le_trans h1 h2

theorem strLe_anti (a b : Str) (h1 : strLe a b = true) (h2 : strLe b a = true) : a = b := by
  rw [strLe_iff] at *
  exact List.le_antisymm h1 h2

theorem strLe_total (a b : Str) : (strLe a b || strLe b a) = true := by
  rw [Bool.or_eq_true, strLe_iff, strLe_iff]
  exact List.le_total a b

/-- The learners the documentation describes can be constructed. -/
theorem DocLearner.built {r : Option Str} {cv ic : Bool} {lam : Option ℝ} {range : Option (List ℝ)} {l : Learner}
    (h : DocLearner r cv ic lam range l) : l.Built := by
  cases h with
  | ridgeCv p =>
    refine Or.inr ⟨⟨["crossvalidation", "intercept", "param", "param_range"], some ic, some range, some p, some true⟩, ?_⟩
    rw [C54_configuration _ (by simp)]
    cases range <;> cases p <;> simp [crossValidates, Option.join]
  | @ridge _ x _ =>
    refine Or.inr ⟨⟨["crossvalidation", "intercept", "param", "param_range"], some ic, some range, some (some x), some false⟩, ?_⟩
    rw [C54_configuration _ (by simp)]
    cases range <;> simp [crossValidates, Option.join]
  | lstsq => exact Or.inl ⟨_, rfl⟩
  | default _ _ => exact Or.inl ⟨_, rfl⟩

/-- The two spaces from which the first and the second words are taken. -/
inductive WordSpaces : ArgSpace Str → Space Str → Space Str → Prop
  | one {s : Space Str} : WordSpaces (.one s) s s
  | two {s t : Space Str} : s.id2col = t.id2col → WordSpaces (.tuple [s, t]) s t

theorem WordSpaces.extract {args : ArgSpace Str} {s1 s2 : Space Str} (h : WordSpaces args s1 s2) :
    args.extract = .ok (s1, s2) := by
  cases h with
  | one => simp [ArgSpace.extract]
  | two h => simp [ArgSpace.extract, h]

/-- A sample of the training data that can be used: the words of the triple and the phrase have vectors; a lexical function
does not look the function word up. -/
def UsableSample (model : Str) (s1 s2 phrase : Space Str) (t : Triple Str) : Prop :=
  if model = cs!"lexical_func" then t.2.1 ∈ s1.id2row ∧ t.2.2 ∈ phrase.id2row
  else t.1 ∈ s1.id2row ∧ t.2.1 ∈ s2.id2row ∧ t.2.2 ∈ phrase.id2row

/-- The shapes a model can be trained on: the two models with scalar parameters need vectors of one length; the arguments
of a lexical function are vectors. -/
def ShapesFit (model : Str) (s1 s2 phrase : Space Str) : Prop :=
  s1.WF ∧ s2.WF ∧ phrase.WF ∧ 0 < s1.mat.nc ∧ 0 < s2.mat.nc ∧ 0 < phrase.mat.nc ∧
  (model = cs!"weighted_add" ∨ model = cs!"dilation" → s1.mat.nc = phrase.mat.nc ∧ s2.mat.nc = phrase.mat.nc) ∧
  (model = cs!"lexical_func" → s1.elemShape = [s1.mat.nc])

/-- The models the script can train. -/
def trainableModels : List Str := [cs!"weighted_add", cs!"dilation", cs!"full_add", cs!"lexical_func"]

theorem usable_triples {model : Str} {s1 s2 phrase : Space Str} {data : List (Triple Str)} (hm : model ≠ cs!"lexical_func") :
    (∃ t ∈ data, UsableSample model s1 s2 phrase t) ↔ trainTriples s1 s2 phrase data ≠ [] := by
  unfold trainTriples UsableSample
  rw [Ne, List.filter_eq_nil_iff]
  simp only [if_neg hm, decide_eq_true_eq]
  push Not
  rfl

theorem usable_lexical {s1 s2 phrase : Space Str} {data : List (Triple Str)} :
    (∃ t ∈ data, UsableSample cs!"lexical_func" s1 s2 phrase t) ↔
      ∃ f, (1 : ℤ) ≤ ((lexSamples s1 phrase data f).length : ℤ) := by
  unfold UsableSample
  simp only [if_true]
  have hlen : ∀ f, ((1 : ℤ) ≤ ((lexSamples s1 phrase data f).length : ℤ)) ↔ ∃ t ∈ data, t.1 = f ∧ t.2.1 ∈ s1.id2row ∧ t.2.2 ∈ phrase.id2row := by
    intro f
    have : ((1 : ℤ) ≤ ((lexSamples s1 phrase data f).length : ℤ)) ↔ 0 < (lexSamples s1 phrase data f).length := by omega
    rw [this, List.length_pos_iff_exists_mem]
    unfold lexSamples
    simp only [List.mem_filter, decide_eq_true_eq]
  simp only [hlen]
  constructor
  · rintro ⟨t, h1, h2⟩; exact ⟨t.1, t, h1, rfl, h2⟩
  · rintro ⟨f, t, h1, _, h2⟩; exact ⟨t, h1, h2⟩

theorem lexTrain_nil (env : Env) (m : LexFun Str) (arg phrase : Space Str) :
    LexFun.train env strLe m [] arg phrase = .error .unboundLocalError := by
  unfold LexFun.train
  simp [validData]

/-- The models can be trained on data with a usable sample. -/
theorem trained_total {env : Env} (henv : env.Ideal) {model : Str} {s1 s2 phrase : Space Str} {args : ArgSpace Str}
    {data : List (Triple Str)} (hm : model ∈ trainableModels) (hx : WordSpaces args s1 s2)
    (hf : ShapesFit model s1 s2 phrase) (hu : ∃ t ∈ data, UsableSample model s1 s2 phrase t) {l : Learner}
    (hl : usesLearner model → l.Built) : ∃ obj, Trained env (· = l) s1 args phrase data model obj := by
  obtain ⟨w1, w2, w3, n1, n2, n3, hs, hlx⟩ := hf
  simp only [trainableModels, List.mem_cons, List.not_mem_nil, or_false] at hm
  rcases hm with rfl | rfl | rfl | rfl
  · obtain ⟨e1, e2⟩ := hs (Or.inl rfl)
    obtain ⟨a, b, h, _⟩ := C131_weighted env henv ⟨.weighted (1 / 2) (1 / 2), none⟩ _ _ rfl data args s1 s2 phrase phrase.mat.nc
      hx.extract w1 w2 w3 n3 e1 e2 rfl ((usable_triples (by decide)).1 hu)
    exact ⟨_, .weighted h⟩
  · obtain ⟨e1, e2⟩ := hs (Or.inr rfl)
    obtain ⟨lam, h, _⟩ := C49_dilation env ⟨.dilation 2, none⟩ 2 rfl data args s1 s2 phrase phrase.mat.nc
      hx.extract w1 w2 w3 n3 e1 e2 rfl ((usable_triples (by decide)).1 hu)
    exact ⟨_, .dilation h⟩
  · obtain ⟨c, h, _⟩ := C131_full_additive env henv (newFullAdditiveLearner l) none none _ l (hl (Or.inl rfl)) rfl data args
      s1 s2 phrase hx.extract w1 w2 w3 n1 n2 n3 ((usable_triples (by decide)).1 hu)
    exact ⟨_, .full rfl h⟩
  · have hd : data ≠ [] := by
      obtain ⟨t, ht, _⟩ := hu
      exact List.ne_nil_of_mem ht
    obtain ⟨m', h⟩ := (C131_lexical_iff env henv strLe strLe_trans strLe_total strLe_anti (LexFun.ofLearner l)
      (hl (Or.inr rfl)) data s1 phrase w1 w3 hd n1 n3 (hlx rfl) (by simp [LexFun.ofLearner])).1.2 (usable_lexical.1 hu)
    exact ⟨_, .lexical rfl h⟩

/-- **C133** With exact numeric routines, readable spaces of fitting shapes, one usable sample, a trainable model, a number
for ridge regression without cross validation, and an output directory that exists or can be created, `train_composition`
succeeds, and it leaves the model trained as documented on the triples of the file. -/
theorem C133_train_succeeds {L : Lib} (henv : L.env.Ideal) {fs : Fs} {inFile base outDir model phraseFile txt : Str}
    {argFiles : List Str} {regression : Option Str} {cv ic : Bool} {param : ParamVal} {range : Option (List ℝ)}
    {s1 s2 phrase : Space Str} {args : ArgSpace Str} {data : List (Triple Str)} (hb : IsBase inFile base)
    (ha : ArgsFrom L fs argFiles s1 args) (hx : WordSpaces args s1 s2) (hp : HoldsSpace L fs phraseFile phrase)
    (hr : fs.read inFile = .ok txt) (ht : TriplesOf txt data) (hm : model ∈ trainableModels)
    (hf : ShapesFit model s1 s2 phrase) (hu : ∃ t ∈ data, UsableSample model s1 s2 phrase t)
    (hlam : regression = some cs!"ridge" → cv = false → ∃ x, param = .num x)
    (ho : OutDir fs (fs.resolve (outDir ++ ['/'])))
    (hfree : fs.resolve (trainedFile outDir model base ++ cs!".pkl") ∉ fs.dirs) :
    ∃ fs' obj, trainModel L fs inFile outDir model argFiles phraseFile regression cv ic param range false = .ok fs' ∧
      Trained L.env (DocLearner regression cv ic param.number range) s1 args phrase data model obj ∧
      fs'.read (trainedFile outDir model base ++ cs!".pkl") = .ok (L.dump obj) := by
  obtain ⟨fs', h⟩ := C76_succeeds hb ha hp hr ht (fun _ => hlam) (fun l hl =>
    trained_total henv hm hx hf hu (fun hul => (hl hul).built)) ho hfree
  obtain ⟨first, args', phrase', txt', data', obj, a1, a2, a3, a4, a5, a6⟩ := C76_saves hb h
  rw [hr] at a3
  obtain rfl := ok_inj a3
  obtain rfl : data = data' := by
    have := readTriples_ok.2 ht
    rw [readTriples_ok.2 a4] at this
    exact (ok_inj this).symm
  have e3 : phrase = phrase' := by
    have := loadSpace_ok.2 hp
    rw [loadSpace_ok.2 a2] at this
    exact (ok_inj this).symm
  subst e3
  have hfg : ∃ f gs, argFiles = f :: gs := by cases ha <;> exact ⟨_, _, rfl⟩
  obtain ⟨f, gs, rfl⟩ := hfg
  obtain ⟨o, l1, l2, rfl⟩ := argsFrom_second ha
  obtain ⟨o', l1', l2', rfl⟩ := argsFrom_second a1
  rw [l1] at l1'
  obtain rfl := ok_inj l1'
  rw [l2] at l2'
  obtain rfl := ok_inj l2'
  exact ⟨fs', obj, h, a5, a6⟩

/-- **C133** Without a usable sample the run raises `ValueError` (`UnboundLocalError` when the data file has no
triple). -/
theorem C133_train_refuses {L : Lib} {fs : Fs} {inFile outDir model phraseFile txt : Str}
    {argFiles : List Str} {regression : Option Str} {cv ic ex : Bool} {param : ParamVal} {range : Option (List ℝ)}
    {s1 s2 phrase : Space Str} {args : ArgSpace Str} {data : List (Triple Str)}
    (ha : ArgsFrom L fs argFiles s1 args) (hx : WordSpaces args s1 s2) (hp : HoldsSpace L fs phraseFile phrase)
    (hr : fs.read inFile = .ok txt) (ht : TriplesOf txt data) (hm : model ∈ trainableModels)
    (hf : s1.WF ∧ s2.WF ∧ phrase.WF) (hu : ¬ ∃ t ∈ data, UsableSample model s1 s2 phrase t)
    (hlam : regression = some cs!"ridge" → cv = false → ∃ x, param = .num x) :
    trainModel L fs inFile outDir model argFiles phraseFile regression cv ic param range ex =
      .error (if data = [] then .unboundLocalError else .valueError) := by
  obtain ⟨w1, w2, w3⟩ := hf
  have hfg : ∃ f gs, argFiles = f :: gs := by cases ha <;> exact ⟨_, _, rfl⟩
  obtain ⟨f, gs, rfl⟩ := hfg
  obtain ⟨o, l1, l2, rfl⟩ := argsFrom_second ha
  have hread : (fs.read inFile).bind readTriples = .ok data := by
    rw [hr]; exact readTriples_ok.2 ht
  have key : ∀ c : Composer Str, model ≠ cs!"lexical_func" → c.model.trainable = true → c.train L.env data (argsOf s1 o) phrase =
      .error (if data = [] then .unboundLocalError else .valueError) := by
    intro c hne htr
    refine train_nothing L.env c data _ s1 s2 phrase hx.extract w1 w2 w3 ?_ htr
    by_contra hc
    exact hu ((usable_triples hne).2 hc)
  have hobj : trainObj L model s1 o phrase regression cv ic param range (fs.read inFile) =
      .error (if data = [] then .unboundLocalError else .valueError) := by
    simp only [trainableModels, List.mem_cons, List.not_mem_nil, or_false] at hm
    unfold trainObj
    rcases hm with rfl | rfl | rfl | rfl
    · have k := key ⟨.weighted (1 / 2) (1 / 2), none⟩ (by decide) rfl
      rw [if_pos rfl]
      cases o <;> (simp only [argsOf] at k; simp only [newWeighted, hread, ok_bind, k, error_bind])
    · have k := key ⟨.dilation 2, none⟩ (by decide) rfl
      rw [if_neg (by decide), if_pos rfl]
      cases o <;> (simp only [argsOf] at k; simp only [newDilation, hread, ok_bind, k, error_bind])
    · obtain ⟨l, hl, _⟩ := makeLearner_complete (range := range) (ic := ic) hlam
      have k := key (newFullAdditiveLearner l) (by decide) rfl
      rw [if_neg (by decide), if_neg (by decide), if_pos rfl]
      cases o <;> (simp only [argsOf] at k; simp only [hl, hread, ok_bind, k, error_bind])
    · obtain ⟨l, hl, _⟩ := makeLearner_complete (range := range) (ic := ic) hlam
      rw [if_neg (by decide), if_neg (by decide), if_neg (by decide), if_pos rfl]
      have k : LexFun.train L.env strLe (LexFun.ofLearner l) data s1 phrase =
          .error (if data = [] then .unboundLocalError else .valueError) := by
        by_cases hd : data = []
        · subst hd; rw [if_pos rfl]; exact lexTrain_nil _ _ _ _
        · rw [if_neg hd]
          exact C46_no_function L.env strLe strLe_trans strLe_total strLe_anti (LexFun.ofLearner l) data s1 phrase w1 w3 hd
            (by simp [LexFun.ofLearner]) (fun h => hu (usable_lexical.2 h))
      simp only [hl, hread, ok_bind, k, error_bind]
  unfold trainModel
  simp only [l1, l2, loadSpace_ok.2 hp, hobj, ok_bind, error_bind]

/-! ## Applying the trained model -/

open Classical in
/-- The triples a trained model can compose, in input order: both words have vectors; for a lexical function the function
word has a usable training sample and the argument has a vector. -/
def composable (model : Str) (s1 s2 phrase : Space Str) (data : List (Triple Str)) (t1 t2 : Space Str)
    (data' : List (Triple Str)) : List (Triple Str) :=
  data'.filter (fun t =>
    if model = cs!"lexical_func" then
      decide ((∃ u ∈ data, u.1 = t.1 ∧ UsableSample model s1 s2 phrase u) ∧ t.2.1 ∈ t1.id2row)
    else decide (t.1 ∈ t1.id2row ∧ t.2.1 ∈ t2.id2row))

theorem composable_known {model : Str} {s1 s2 phrase t1 t2 : Space Str} {data data' : List (Triple Str)}
    (hm : model ≠ cs!"lexical_func") : composable model s1 s2 phrase data t1 t2 data' = knownTriples t1 t2 data' := by
  unfold composable knownTriples
  simp only [if_neg hm]
  refine List.filter_congr fun t _ => ?_
  congr

theorem composable_lexical {s1 s2 phrase t1 t2 : Space Str} {data data' : List (Triple Str)} :
    composable cs!"lexical_func" s1 s2 phrase data t1 t2 data' =
      data'.filter (fun t => decide ((1 : ℤ) ≤ ((lexSamples s1 phrase data t.1).length : ℤ) ∧ t.2.1 ∈ t1.id2row)) := by
  unfold composable
  simp only [if_true]
  refine List.filter_congr fun t _ => ?_
  rw [decide_eq_decide]
  refine and_congr_left fun _ => ?_
  have : ((1 : ℤ) ≤ ((lexSamples s1 phrase data t.1).length : ℤ)) ↔ 0 < (lexSamples s1 phrase data t.1).length := by omega
  rw [this, List.length_pos_iff_exists_mem]
  unfold lexSamples UsableSample
  simp only [List.mem_filter, decide_eq_true_eq, if_true]

/-- The trained model composes every list with a composable triple whose phrases differ. -/
theorem composed_total {env : Env} (henv : env.Ideal) {model : Str} {s1 s2 phrase : Space Str} {args : ArgSpace Str}
    {data : List (Triple Str)} {P : Learner → Prop} (hP : ∀ l, P l → l.Built) (hx : WordSpaces args s1 s2)
    (hf : ShapesFit model s1 s2 phrase) (hsh : phrase.elemShape ≠ [])
    (hu : ∃ t ∈ data, UsableSample model s1 s2 phrase t) {obj : PyObj}
    (hT : Trained env P s1 args phrase data model obj) {args' : ArgSpace Str} {t1 t2 : Space Str} (hx' : WordSpaces args' t1 t2)
    (w1' : t1.WF) (w2' : t2.WF) (e1 : t1.mat.nc = s1.mat.nc) (e2 : t2.mat.nc = s2.mat.nc) {data' : List (Triple Str)}
    (hne : composable model s1 s2 phrase data t1 t2 data' ≠ [])
    (hnd : ((composable model s1 s2 phrase data t1 t2 data').map (·.2.2)).Nodup) :
    ∃ cls res, ClassOf obj cls ∧ ComposedBy t1 args' data' res obj ∧ res.WF ∧
      res.id2row = (composable model s1 s2 phrase data t1 t2 data').map (·.2.2) ∧ res.id2col = phrase.id2col ∧
      res.mat.nc = phrase.mat.nc := by
  obtain ⟨w1, w2, w3, n1, n2, n3, hs, hlx⟩ := hf
  have hcols : ∀ m : CModel, (⟨m, some phrase.id2col⟩ : Composer Str).ColumnsFit phrase.mat.nc := by
    intro m cols hc
    injection hc with hc
    subst hc
    exact ⟨w3.cols.nodup, fun h => (w3.ncols h).symm⟩
  have hof : ∀ (c : Composer Str) (r : Space Str), (c.compose data' args').2 = .ok r →
      ComposedBy t1 args' data' r (.composer c) := fun c r h => .composer (c' := (c.compose data' args').1) (by rw [← h])
  cases hT with
  | weighted h =>
    have hk := composable_known (model := cs!"weighted_add") (s1 := s1) (s2 := s2) (phrase := phrase) (data := data) (t1 := t1)
      (t2 := t2) (data' := data') (by decide)
    rw [hk] at hne hnd ⊢
    obtain ⟨g1, g2⟩ := hs (Or.inl rfl)
    obtain ⟨a, b, h', _⟩ := C131_weighted env henv ⟨.weighted (1 / 2) (1 / 2), none⟩ _ _ rfl data args s1 s2 phrase phrase.mat.nc
      hx.extract w1 w2 w3 n3 g1 g2 rfl ((usable_triples (by decide)).1 hu)
    rw [h] at h'
    obtain rfl := ok_inj h'
    obtain ⟨r, r1, r2⟩ := C38_compose ⟨.weighted a b, some phrase.id2col⟩ data' args' t1 t2 phrase.mat.nc hx'.extract w1' w2'
      ⟨by omega, by omega, n3, by omega, by omega⟩ (hcols _) hne hnd
    exact ⟨_, r, .weighted, hof _ r r1, r2.wf, r2.labels, (C38_columns _ _ _ _ _ r hx'.extract r1).1 _ rfl, r2.width⟩
  | dilation h =>
    have hk := composable_known (model := cs!"dilation") (s1 := s1) (s2 := s2) (phrase := phrase) (data := data) (t1 := t1)
      (t2 := t2) (data' := data') (by decide)
    rw [hk] at hne hnd ⊢
    obtain ⟨g1, g2⟩ := hs (Or.inr rfl)
    obtain ⟨lam, h', _⟩ := C49_dilation env ⟨.dilation 2, none⟩ 2 rfl data args s1 s2 phrase phrase.mat.nc
      hx.extract w1 w2 w3 n3 g1 g2 rfl ((usable_triples (by decide)).1 hu)
    rw [h] at h'
    obtain rfl := ok_inj h'
    obtain ⟨r, r1, r2⟩ := C38_compose ⟨.dilation lam, some phrase.id2col⟩ data' args' t1 t2 phrase.mat.nc hx'.extract w1' w2'
      ⟨by omega, by omega, n3, by omega, by omega⟩ (hcols _) hne hnd
    exact ⟨_, r, .dilation, hof _ r r1, r2.wf, r2.labels, (C38_columns _ _ _ _ _ r hx'.extract r1).1 _ rfl, r2.width⟩
  | @full l c hl h =>
    have hk := composable_known (model := cs!"full_add") (s1 := s1) (s2 := s2) (phrase := phrase) (data := data) (t1 := t1)
      (t2 := t2) (data' := data') (by decide)
    rw [hk] at hne hnd ⊢
    obtain ⟨c', h', _, _, hcomp⟩ := C131_full_additive env henv (newFullAdditiveLearner l) none none _ l (hP _ hl) rfl data args
      s1 s2 phrase hx.extract w1 w2 w3 n1 n2 n3 ((usable_triples (by decide)).1 hu)
    rw [h] at h'
    obtain rfl := ok_inj h'
    obtain ⟨r, r1, r2, r3, r4, r5⟩ := hcomp args' t1 t2 data' hx'.extract w1' w2' e1 e2 hne hnd
    refine ⟨cs!"FullAdditive", r, ?_, hof _ r r1, r2, r3, r4, r5⟩
    have hmod := stored_full h
    obtain ⟨m, cols⟩ := c
    cases m with
    | fullAdditive a b i l => exact .full
    | weighted _ _ => exact hmod.elim
    | dilation _ => exact hmod.elim
    | multiplicative => exact hmod.elim
  | @lexical l m hl h =>
    rw [composable_lexical] at hne hnd ⊢
    have hX : ∀ f, ∃ X : TMat ℝ, (1 : ℤ) ≤ ((lexSamples s1 phrase data f).length : ℤ) →
        l.train env ⟨lexTy s1 phrase, argRows s1 (lexSamples s1 phrase data f)⟩
          ⟨lexTy s1 phrase, phraseRows phrase (lexSamples s1 phrase data f)⟩ = .ok X ∧
        X.ty = lexTy s1 phrase ∧ X.nr = (if l.hasIntercept then s1.mat.nc + 1 else s1.mat.nc) ∧ X.nc = phrase.mat.nc := by
      intro f
      by_cases hlen : (1 : ℤ) ≤ ((lexSamples s1 phrase data f).length : ℤ)
      · obtain ⟨X, x1, x2, x3, x4, _⟩ := C131_learner env henv l (hP _ hl)
          ⟨lexTy s1 phrase, argRows s1 (lexSamples s1 phrase data f)⟩ ⟨lexTy s1 phrase, phraseRows phrase (lexSamples s1 phrase data f)⟩
          rfl rfl (show 0 < (lexSamples s1 phrase data f).length by omega) n1 n3
        exact ⟨X, fun _ => ⟨x1, x2, x3, x4⟩⟩
      · exact ⟨⟨.dense, Mat.of 0 0 (fun _ _ => 0)⟩, fun h => absurd h hlen⟩
    choose X hX using hX
    obtain ⟨m', r, h', r1, r2, r3, r4, r5, _⟩ := C46_train_compose env strLe strLe_trans strLe_total strLe_anti (LexFun.ofLearner l) data
      s1 phrase w1 w3 n1 n3 (hlx rfl) hsh (by simp [LexFun.ofLearner]) (usable_lexical.1 hu) X hX data' t1 w1' e1 _
      (List.filter_congr fun t _ => by rw [decide_eq_decide]; rfl) hne hnd
    rw [h] at h'
    obtain rfl := ok_inj h'
    exact ⟨_, r, .lexical, .lexical r1, r2, r3, r4, by rw [← r2.shape, r5, w3.shape]⟩

theorem classOf_unique {o : PyObj} {a b : Str} (h1 : ClassOf o a) (h2 : ClassOf o b) : a = b := by
  cases h1 <;> cases h2 <;> rfl

theorem composedBy_unique {first : Space Str} {args : ArgSpace Str} {data : List (Triple Str)} {r r' : Space Str} {o : PyObj}
    (h1 : ComposedBy first args data r o) (h2 : ComposedBy first args data r' o) : r = r' := by
  cases h1 with
  | composer h =>
    cases h2 with
    | composer h' => rw [h] at h'; injection h' with _ h'; exact ok_inj h'
  | lexical h =>
    cases h2 with
    | lexical h' => rw [h] at h'; exact ok_inj h'

/-- **C133** The trained model, stored anywhere, can be applied: with exact numeric routines, argument spaces of the widths
used in training, at least one composable triple and distinct phrases, `apply_composition --load_model` succeeds, and the
space it leaves has exactly the phrases of the composable triples as rows, in input order, and the columns of the phrase
space. -/
theorem C133_apply_succeeds {L : Lib} (henv : L.env.Ideal) {fs : Fs} {model : Str} {s1 s2 phrase : Space Str} {args : ArgSpace Str}
    {data : List (Triple Str)} {regression : Option Str} {cv ic : Bool} {param : Option ℝ} {range : Option (List ℝ)}
    (hx : WordSpaces args s1 s2) (hf : ShapesFit model s1 s2 phrase) (hsh : phrase.elemShape ≠ [])
    (hu : ∃ t ∈ data, UsableSample model s1 s2 phrase t) {obj : PyObj}
    (hT : Trained L.env (DocLearner regression cv ic param range) s1 args phrase data model obj)
    {file : Str} (hmod : HoldsModel L fs file obj)
    {inFile base outDir txt : Str} {argFiles : List Str} {args' : ArgSpace Str} {t1 t2 : Space Str} {data' : List (Triple Str)}
    (hb : IsBase inFile base) (ha : ArgsFrom L fs argFiles t1 args') (hx' : WordSpaces args' t1 t2)
    (hr : fs.read inFile = .ok txt) (ht : TriplesOf txt data')
    (w1 : t1.WF) (w2 : t2.WF) (e1 : t1.mat.nc = s1.mat.nc) (e2 : t2.mat.nc = s2.mat.nc)
    (hne : composable model s1 s2 phrase data t1 t2 data' ≠ [])
    (hnd : ((composable model s1 s2 phrase data t1 t2 data').map (·.2.2)).Nodup) {alpha beta lam : Option ℝ}
    (ho : OutDir fs (fs.resolve (outDir ++ ['/'])))
    (hfree : ∀ cls, ClassOf obj cls → fs.resolve (composedFile outDir cls base ++ cs!".pkl") ∉ fs.dirs) :
    ∃ fs' cls res, applyModel L fs inFile outDir none (some file) argFiles alpha beta lam none = .ok fs' ∧ ClassOf obj cls ∧
      fs'.read (composedFile outDir cls base ++ cs!".pkl") = .ok (L.dump (.space res)) ∧ res.WF ∧
      res.id2row = (composable model s1 s2 phrase data t1 t2 data').map (·.2.2) ∧ res.id2col = phrase.id2col ∧
      res.mat.nc = phrase.mat.nc := by
  obtain ⟨cls, res, c1, c2, c3, c4, c5, c6⟩ := composed_total henv (fun l hl => hl.built) hx hf hsh hu hT hx' w1 w2 e1 e2 hne hnd
  have hsel : SelectedModel L fs alpha beta lam none (some file) obj := Or.inr ⟨rfl, file, rfl, hmod⟩
  obtain ⟨fs', h⟩ := C79_succeeds (alpha := alpha) (beta := beta) (lam := lam) hb hsel c1 ha hr ht c2 ho (hfree cls c1)
  refine ⟨fs', cls, res, h, c1, ?_, c3, c4, c5, c6⟩
  obtain ⟨m, cls', first, args'', txt', data'', res', k1, k2, k3, k4, k5, k6, k7⟩ := C79_saves hb h
  obtain rfl : obj = m := by
    rcases k1 with ⟨nm, h, _⟩ | ⟨_, f, hf, txt1, z1, z2, _⟩
    · cases h
    · injection hf with hf; subst hf
      obtain ⟨txt2, y1, y2, _⟩ := hmod
      rw [y1] at z1
      obtain rfl := ok_inj z1
      rw [y2] at z2
      injection z2
  obtain rfl : cls = cls' := classOf_unique c1 k2
  rw [hr] at k4
  obtain rfl := ok_inj k4
  obtain rfl : data' = data'' := by
    have := readTriples_ok.2 ht
    rw [readTriples_ok.2 k5] at this
    exact (ok_inj this).symm
  have hfg : ∃ f gs, argFiles = f :: gs := by cases ha <;> exact ⟨_, _, rfl⟩
  obtain ⟨f, gs, rfl⟩ := hfg
  obtain ⟨o, l1, l2, rfl⟩ := argsFrom_second ha
  obtain ⟨o', l1', l2', rfl⟩ := argsFrom_second k3
  rw [l1] at l1'
  obtain rfl := ok_inj l1'
  rw [l2] at l2'
  obtain rfl := ok_inj l2'
  obtain rfl : res = res' := composedBy_unique c2 k6
  exact k7.1

/-! ## One run after the other -/

/-- The output directory after training. -/
theorem trained_dirs {L : Lib} {fs fs' : Fs} {inFile base outDir model phraseFile : Str} {argFiles : List Str}
    {regression : Option Str} {cv ic : Bool} {param : ParamVal} {range : Option (List ℝ)} (hb : IsBase inFile base)
    (h : trainModel L fs inFile outDir model argFiles phraseFile regression cv ic param range false = .ok fs')
    (ho : OutDir fs (fs.resolve (outDir ++ ['/'])))
    (hfree : fs.resolve (trainedFile outDir model base ++ cs!".pkl") ∉ fs.dirs) :
    fs'.cwd = fs.cwd ∧ OutDir fs' (fs.resolve (outDir ++ ['/'])) ∧
      ∀ d ∈ fs'.dirs, d ∈ fs.dirs ∨ d <+: fs.resolve (outDir ++ ['/']) := by
  unfold trainModel at h
  split at h
  · cases h
  · rename_i f gs
    simp only [bind_eq_ok] at h
    obtain ⟨arg, _, arg2, _, phrase, _, obj, h4, fs1, h5, h6⟩ := h
    obtain rfl : fs1 = fs' := ok_inj h6
    have hms : '/' ∉ model := by
      obtain ⟨_, _, _, _, h⟩ := trainObj_ok h4
      cases h <;> decide
    have hq : trainedFile outDir model base ++ cs!".pkl" =
        outDir ++ '/' :: (cs!"TRAINED_COMP_MODEL." ++ model ++ ['.'] ++ base ++ cs!".pkl") := by simp [trainedFile]
    have hbn := hb.1
    rw [hq] at hfree
    rw [trainedFile_eq hb, hq] at h5
    obtain ⟨fs2, s1, s2, s3, _, s4⟩ := ho.save (nm := cs!"TRAINED_COMP_MODEL." ++ model ++ ['.'] ++ base ++ cs!".pkl")
      (c := L.dump obj) (by simp [hms, hbn]) (by simp) (by simp) hfree
    rw [s1] at h5
    obtain rfl := ok_inj h5
    exact ⟨s3, s2, s4⟩

/-- The class of a trained model. -/
theorem trained_class {env : Env} {P : Learner → Prop} {first phrase : Space Str} {args : ArgSpace Str}
    {data : List (Triple Str)} {obj : PyObj} {model cls : Str} (h : Trained env P first args phrase data model obj)
    (hc : ClassOf obj cls) : (model, cls) ∈ acceptedModels := by
  have e : cls = className obj := classOf_unique hc (classOf_total (by cases h <;> simp))
  subst e
  cases h with
  | weighted h => rw [train_class h]; decide
  | dilation h => rw [train_class h]; simp [acceptedModels, className]
  | full h1 h2 => rw [train_class h2]; simp [acceptedModels, className, newFullAdditiveLearner]
  | lexical h1 h2 => simp [acceptedModels, className]

theorem argsFrom_congr {L : Lib} {fs fs' : Fs} {files : List Str} {s : Space Str} {args : ArgSpace Str}
    (h : ArgsFrom L fs files s args) (he : ∀ f ∈ files, fs'.read f = fs.read f) : ArgsFrom L fs' files s args := by
  have hs : ∀ {f t}, f ∈ files → HoldsSpace L fs f t → HoldsSpace L fs' f t := by
    rintro f t hf ⟨txt, h1, h2⟩
    exact ⟨txt, (he f hf).trans h1, h2⟩
  cases h with
  | two h1 h2 => exact .two (hs (by simp) h1) (hs (by simp) h2)
  | one h1 h2 => exact .one (hs (by simp) h1) h2

/-- **C133** Training followed by applying: under conditions on the file system before the first run, and if the trained
model survives pickling, both runs succeed, and the second leaves the space with exactly the composable phrases. -/
theorem C133_train_then_apply {L : Lib} (henv : L.env.Ideal) {fs : Fs} {inFile base outDir model phraseFile txt : Str}
    {argFiles : List Str} {regression : Option Str} {cv ic : Bool} {param : ParamVal} {range : Option (List ℝ)}
    {s1 s2 phrase : Space Str} {args : ArgSpace Str} {data : List (Triple Str)} (hb : IsBase inFile base)
    (ha : ArgsFrom L fs argFiles s1 args) (hx : WordSpaces args s1 s2) (hp : HoldsSpace L fs phraseFile phrase)
    (hr : fs.read inFile = .ok txt) (ht : TriplesOf txt data) (hm : model ∈ trainableModels)
    (hf : ShapesFit model s1 s2 phrase) (hsh : phrase.elemShape ≠ []) (hu : ∃ t ∈ data, UsableSample model s1 s2 phrase t)
    (hlam : regression = some cs!"ridge" → cv = false → ∃ x, param = .num x)
    (ho : OutDir fs (fs.resolve (outDir ++ ['/'])))
    (hfree : fs.resolve (trainedFile outDir model base ++ cs!".pkl") ∉ fs.dirs)
    (hpk : ∀ obj, Trained L.env (DocLearner regression cv ic param.number range) s1 args phrase data model obj →
      L.undump (L.dump obj) = some obj)
    {inFile' base' txt' : Str} {argFiles' : List Str} {args' : ArgSpace Str} {t1 t2 : Space Str} {data' : List (Triple Str)}
    (hb' : IsBase inFile' base') (ha' : ArgsFrom L fs argFiles' t1 args') (hx' : WordSpaces args' t1 t2)
    (hr' : fs.read inFile' = .ok txt') (ht' : TriplesOf txt' data')
    (hapart : ∀ f ∈ inFile' :: argFiles', fs.resolve f ≠ fs.resolve (trainedFile outDir model base ++ cs!".pkl"))
    (w1 : t1.WF) (w2 : t2.WF) (e1 : t1.mat.nc = s1.mat.nc) (e2 : t2.mat.nc = s2.mat.nc)
    (hne : composable model s1 s2 phrase data t1 t2 data' ≠ [])
    (hnd : ((composable model s1 s2 phrase data t1 t2 data').map (·.2.2)).Nodup) {alpha beta lam : Option ℝ}
    (hfree' : ∀ cls, (model, cls) ∈ acceptedModels → fs.resolve (composedFile outDir cls base' ++ cs!".pkl") ∉ fs.dirs) :
    ∃ fs1 fs2 cls res,
      trainModel L fs inFile outDir model argFiles phraseFile regression cv ic param range false = .ok fs1 ∧
      applyModel L fs1 inFile' outDir none (some (trainedFile outDir model base ++ cs!".pkl")) argFiles' alpha beta lam none
        = .ok fs2 ∧
      (model, cls) ∈ acceptedModels ∧ fs2.read (composedFile outDir cls base' ++ cs!".pkl") = .ok (L.dump (.space res)) ∧ res.WF ∧
      res.id2row = (composable model s1 s2 phrase data t1 t2 data').map (·.2.2) ∧ res.id2col = phrase.id2col ∧
      res.mat.nc = phrase.mat.nc := by
  obtain ⟨fs1, obj, h1, h2, h3⟩ := C133_train_succeeds henv (ic := ic) (range := range) hb ha hx hp hr ht hm hf hu hlam ho hfree
  obtain ⟨d1, d2, d3⟩ := trained_dirs hb h1 ho hfree
  have hsame : ∀ f ∈ inFile' :: argFiles', fs1.read f = fs.read f := fun f hf =>
    C76_other_files hb h1 (hapart f hf) (by intro h; cases h)
  have hhold : HoldsModel L fs1 (trainedFile outDir model base ++ cs!".pkl") obj :=
    ⟨_, h3, hpk obj h2, by cases h2 <;> simp⟩
  have hcls : ∀ cls, ClassOf obj cls → '/' ∉ cls := by
    intro cls h
    cases h <;> decide
  obtain ⟨fs2, cls, res, k1, k2, k3⟩ := C133_apply_succeeds henv (alpha := alpha) (beta := beta) (lam := lam) (outDir := outDir) hx hf hsh hu
    h2 hhold hb' (argsFrom_congr ha' fun f hf => hsame f (List.mem_cons_of_mem _ hf)) hx' ((hsame _ (by simp)).trans hr') ht'
    w1 w2 e1 e2 hne hnd (by rw [Fs.resolve_cwd d1]; exact d2)
    (by
      intro cls hc hmem
      rw [Fs.resolve_cwd d1] at hmem
      rcases d3 _ hmem with h | h
      · exact hfree' cls (trained_class h2 hc) h
      · have hq : composedFile outDir cls base' ++ cs!".pkl" =
            outDir ++ '/' :: (cs!"COMPOSED_SS." ++ cls ++ ['.'] ++ base' ++ cs!".pkl") := by simp [composedFile]
        have hlen := h.length_le
        rw [hq, resolve_in fs outDir (by simp [hcls cls hc, hb'.1]) (by simp) (by simp)] at hlen
        simp at hlen)
  exact ⟨fs1, fs2, cls, res, h1, k1, trained_class h2 k2, k3⟩

/-! ## The command line -/

theorem DocLearner.lam {r : Option Str} {cv ic : Bool} {x y : Option ℝ} {range : Option (List ℝ)} {l : Learner}
    (h : DocLearner r cv ic x range l) (hxy : r = some cs!"ridge" → cv = false → x = y) : DocLearner r cv ic y range l := by
  cases h with
  | ridgeCv p => exact .ridgeCv p
  | ridge => obtain rfl := hxy rfl rfl; exact .ridge
  | lstsq => exact .lstsq
  | default h1 h2 => exact .default h1 h2

theorem Trained.mono {env : Env} {P Q : Learner → Prop} {first phrase : Space Str} {args : ArgSpace Str}
    {data : List (Triple Str)} {model : Str} {obj : PyObj} (hPQ : ∀ l, P l → Q l)
    (h : Trained env P first args phrase data model obj) : Trained env Q first args phrase data model obj := by
  cases h with
  | weighted h => exact .weighted h
  | dilation h => exact .dilation h
  | full hl h => exact .full (hPQ _ hl) h
  | lexical hl h => exact .lexical (hPQ _ hl) h

theorem paramsOf_complete {io : NumIO} {v w : OptVal} {lam : Option ℝ} {range : Option (List ℝ)}
    (h1 : NumOpt io v lam) (h2 : NumsOpt io w range) :
    ∃ param, paramsOf io v.asStr w.asList = .ok (param, range) ∧
      (range = none → param = match lam with | none => .none | some x => .num x) := by
  have e1 := floatOpt_ok.2 h1
  unfold paramsOf
  rw [e1]
  simp only [ok_bind, pure_eq_ok]
  unfold NumsOpt at h2
  split at h2
  · rename_i hw
    subst h2
    rw [hw]
    cases lam <;> exact ⟨_, rfl, fun _ => rfl⟩
  · rename_i l hw
    obtain ⟨ys, hys, rfl⟩ := h2
    rw [hw]
    simp only [floatList_ok.2 hys, ok_bind]
    cases hl : l.getLast? with
    | none => exact ⟨_, rfl, by simp⟩
    | some t => exact ⟨_, rfl, by simp⟩

/-- **C133** from the command line, without a log file and without export of the parameters: options whose values can be
read, input as above, and a number given by `--lambda` (and no `--lambda_range`) if ridge regression does not
cross-validate; then the script succeeds and leaves the model trained with the documented learner. -/
theorem C133_main_train {L : Lib} (henv : L.env.Ideal) {fs : Fs} {argv : List Str} {st : Settings}
    (hst : cliTrain.parseArgs L.parseCfg fs argv = .ok st) (hlog : st cs!"log_file" = .none)
    {inFile base outDir model phraseFile txt : Str} {argFiles : List Str} {cv ic : Bool} {lam : Option ℝ}
    {range : Option (List ℝ)} (hi : st cs!"in_file" = .str inFile) (ho : st cs!"out_dir" = .str outDir)
    (hm : st cs!"model" = .str model) (hargs : st cs!"arg_space" = .list argFiles) (hph : st cs!"phrase_space" = .str phraseFile)
    (hcv : L.evalBool (st cs!"crossvalidation").strD = .ok (some cv))
    (hic : L.evalBool (st cs!"intercept").strD = .ok (some ic))
    (hex : L.evalBool (st cs!"export_params").strD = .ok (some false))
    (hlam : NumOpt L.io (st cs!"param") lam) (hrange : NumsOpt L.io (st cs!"param_range") range)
    (hneed : (st cs!"regression").asStr = some cs!"ridge" → cv = false → lam ≠ none ∧ range = none)
    {s1 s2 phrase : Space Str} {args : ArgSpace Str} {data : List (Triple Str)} (hb : IsBase inFile base)
    (ha : ArgsFrom L fs argFiles s1 args) (hx : WordSpaces args s1 s2) (hp : HoldsSpace L fs phraseFile phrase)
    (hr : fs.read inFile = .ok txt) (ht : TriplesOf txt data) (hmod : model ∈ trainableModels)
    (hf : ShapesFit model s1 s2 phrase) (hu : ∃ t ∈ data, UsableSample model s1 s2 phrase t)
    (hout : OutDir fs (fs.resolve (outDir ++ ['/'])))
    (hfree : fs.resolve (trainedFile outDir model base ++ cs!".pkl") ∉ fs.dirs) :
    ∃ fs' obj, mainTrain L fs argv = .ok fs' ∧
      Trained L.env (DocLearner (st cs!"regression").asStr cv ic lam range) s1 args phrase data model obj ∧
      fs'.read (trainedFile outDir model base ++ cs!".pkl") = .ok (L.dump obj) := by
  obtain ⟨param, hpar, hval⟩ := paramsOf_complete hlam hrange
  have hneed' : (st cs!"regression").asStr = some cs!"ridge" → cv = false → ∃ x, lam = some x ∧ param = .num x := by
    intro h1 h2
    obtain ⟨k1, k2⟩ := hneed h1 h2
    obtain ⟨x, rfl⟩ := Option.ne_none_iff_exists'.1 k1
    exact ⟨x, rfl, hval k2⟩
  obtain ⟨fs', obj, h1, h2, h3⟩ := C133_train_succeeds henv (ic := ic) (range := range) hb ha hx hp hr ht hmod hf hu
    (fun k1 k2 => (hneed' k1 k2).imp fun _ h => h.2) hout hfree
  have hck : checkLambda cv (st cs!"regression").asStr param = .ok () := by
    unfold checkLambda
    split
    · split
      · rename_i hrr
        obtain ⟨x, _, hx⟩ := hneed' hrr rfl
        cases hx
      · rfl
    · rfl
  refine ⟨fs', obj, ?_, h2.mono fun l hl => hl.lam ?_, h3⟩
  · have hlog' : configLogging fs (st cs!"log_file").asStr = .ok fs := by rw [hlog]; rfl
    simp only [mainTrain, hst, main_ok_bind, hlog', lift_of_ok, hi, ho, hm, hargs, hph, asStr_str, asList_list, require_some,
      hcv, requireBool, hic, hex, hpar, hck, h1]
  · intro k1 k2
    obtain ⟨x, rfl, rfl⟩ := hneed' k1 k2
    rfl

end
end Dissect
