import Verif.Model.Ctor
import Verif.Lemmas.Py
import Verif.Lemmas.MatOps

/-! # C109 – C111: constructors with keyword arguments -/

namespace Dissect
open Finset
noncomputable section
variable {κ : Type} [DecidableEq κ]

/-! ### Specification -/

/-- One keyword argument. -/
def kw1 (k : String) (v : PyVal κ) : Kwargs κ := Dict.empty.set k v

/-- Some keyword is not among the documented ones. -/
def Misspelt (valid : List String) (kw : Kwargs κ) : Prop := ∃ k ∈ kw.keys, k ∉ valid

/-- The documented name of a criterion. -/
def critName : Crit → String
  | .sum => "sum"
  | .length => "length"

theorem validKw_error {keys valid : List String} (h : ∃ k ∈ keys, k ∉ valid) :
    assertValidKwargs keys valid = .error .invalidArgumentError := by
  unfold assertValidKwargs
  rw [if_neg]
  rw [List.all_eq_true]
  obtain ⟨k, hk, hn⟩ := h
  intro hall
  exact hn (by simpa using hall k hk)

theorem validKw_ok {keys valid : List String} (h : ∀ k ∈ keys, k ∈ valid) :
    assertValidKwargs keys valid = .ok () := by
  unfold assertValidKwargs
  rw [if_pos]
  rw [List.all_eq_true]
  intro k hk
  simpa using h k hk

theorem validKw_iff {keys valid : List String} {u : Unit} :
    assertValidKwargs keys valid = .ok u ↔ ∀ k ∈ keys, k ∈ valid := by
  constructor
  · intro h
    by_contra hn
    push_neg at hn
    rw [validKw_error hn] at h
    cases h
  · exact validKw_ok

/-- **C109** a keyword the class does not document is refused with `InvalidArgumentError`, whatever the other
arguments are: the normalisations, feature selection (with a positive dimension), both learners, `LexicalFunction`
and `FullAdditive`. -/
theorem C109_unknown_keyword (kw : Kwargs κ) :
    (Misspelt ["criterion"] kw → newRowNorm kw = .error .invalidArgumentError ∧
      newNorm kw = .error .invalidArgumentError ∧
      ∀ z : ℤ, 0 < z → newTop (.int z) kw = .error .invalidArgumentError) ∧
    (Misspelt ["intercept"] kw → newLstsq kw = .error .invalidArgumentError) ∧
    (Misspelt ["function_space", "intercept", "learner"] kw → newLexical kw = .error .invalidArgumentError) ∧
    (Misspelt ["A", "B", "learner"] kw → newFullAdd kw = .error .invalidArgumentError) ∧
    ∀ a : Learner.RidgeArgs, (∃ k ∈ a.names, k ∉ ["intercept", "param_range", "crossvalidation", "param"]) →
      Learner.newRidge a = .error .invalidArgumentError := by
  refine ⟨fun h => ?_, fun h => ?_, fun h => ?_, fun h => ?_, fun a h => ?_⟩
  · have hc : ∀ d, critKw d kw = .error .invalidArgumentError := by
      intro d
      unfold critKw
      rw [validKw_error h]
      rfl
    refine ⟨?_, ?_, fun z hz => ?_⟩
    · unfold newRowNorm; rw [hc]; rfl
    · unfold newNorm; rw [hc]; rfl
    · have e : checkDimArg (.int z) = .ok (.int z) := by rw [checkDimArg, if_neg (by omega)]
      unfold newTop
      rw [e, ok_bind, hc]; rfl
  · unfold newLstsq; rw [validKw_error h]; rfl
  · unfold newLexical; rw [validKw_error h]; rfl
  · unfold newFullAdd; rw [validKw_error h]; rfl
  · unfold Learner.newRidge; rw [validKw_error h]; rfl

/-- The criterion that the keywords select: the given one, or the documented default. -/
def SelectsCrit (dflt c : Crit) (kw : Kwargs κ) : Prop :=
  (kw.keys = [] ∧ c = dflt) ∨ (kw.keys = ["criterion"] ∧ kw.get? "criterion" = some (.str (critName c)))

theorem keys_criterion {kw : Kwargs κ} (h : ∀ k ∈ kw.keys, k ∈ ["criterion"]) :
    kw.keys = [] ∨ kw.keys = ["criterion"] := by
  have hn : kw.keys.Nodup := kw.nodup
  rcases hk : kw.keys with _ | ⟨a, _ | ⟨b, t⟩⟩
  · exact Or.inl rfl
  · right
    rw [hk] at h
    have := h a (by simp)
    simp only [List.mem_singleton] at this
    rw [this]
  · exfalso
    rw [hk] at h hn
    have h1 := h a (by simp)
    have h2 := h b (by simp)
    simp only [List.mem_singleton] at h1 h2
    simp [h1, h2] at hn

theorem get?_of_keys_nil {kw : Kwargs κ} (h : kw.keys = []) (k : String) : kw.get? k = none := by
  have : kw.entries = [] := by simpa [Dict.keys] using h
  simp [Dict.get?, this]

theorem get?_of_keys_singleton {kw : Kwargs κ} {k : String} (h : kw.keys = [k]) : ∃ v, kw.get? k = some v := by
  rcases he : kw.entries with _ | ⟨a, _ | ⟨b, t⟩⟩
  · simp [Dict.keys, he] at h
  · simp only [Dict.keys, he, List.map_cons, List.map_nil, List.cons.injEq, and_true] at h
    exact ⟨a.2, by simp [Dict.get?, he, h]⟩
  · simp [Dict.keys, he] at h

theorem critVal_ok {v : PyVal κ} {c : Crit} : critVal v = .ok c ↔ v = .str (critName c) := by
  cases v with
  | str s =>
    unfold critVal
    by_cases h1 : s = "sum"
    · subst h1
      cases c <;> simp [critName]
    · by_cases h2 : s = "length"
      · subst h2
        cases c <;> simp [critName]
      · cases c <;> simp [critName, h1, h2]
  | _ => simp [critVal]

theorem critKw_ok {dflt c : Crit} {kw : Kwargs κ} : critKw dflt kw = .ok c ↔ SelectsCrit dflt c kw := by
  unfold critKw SelectsCrit
  constructor
  · intro h
    obtain ⟨u, hu, h⟩ := bind_eq_ok.1 h
    rcases keys_criterion (validKw_iff.1 hu) with hk | hk
    · rw [get?_of_keys_nil hk] at h
      simp only [hk, if_true] at h
      exact Or.inl ⟨hk, (ok_inj h).symm⟩
    · obtain ⟨v, hv⟩ := get?_of_keys_singleton hk
      rw [hv] at h
      exact Or.inr ⟨hk, by rw [hv, critVal_ok.1 h]⟩
  · rintro (⟨hk, rfl⟩ | ⟨hk, hv⟩)
    · rw [validKw_ok (by simp [hk]), ok_bind, get?_of_keys_nil hk]
      simp [hk]
    · rw [validKw_ok (by simp [hk]), ok_bind, hv]
      exact critVal_ok.2 rfl

theorem critKw_error {dflt : Crit} {kw : Kwargs κ} (hk : ∀ k ∈ kw.keys, k ∈ ["criterion"])
    (h : ∀ c, ¬ SelectsCrit dflt c kw) : critKw dflt kw = .error .valueError := by
  unfold critKw
  rw [validKw_ok hk, ok_bind]
  rcases keys_criterion hk with hk | hk
  · exact absurd (Or.inl ⟨hk, rfl⟩) (h dflt)
  · obtain ⟨v, hv⟩ := get?_of_keys_singleton hk
    rw [hv]
    show critVal v = _
    cases v with
    | str s =>
      rw [critVal, if_neg, if_neg]
      · rintro rfl; exact h .length (Or.inr ⟨hk, hv⟩)
      · rintro rfl; exact h .sum (Or.inr ⟨hk, hv⟩)
    | _ => rfl

/-- **C109** the normalisations use the given criterion, or the documented default (`length` for `RowNormalization`,
`sum` for `Normalization`), and refuse any other value of the keyword with `ValueError`. -/
theorem C109_criterion (kw : Kwargs κ) :
    (∀ c, newRowNorm kw = .ok (.rowNorm c) ↔ SelectsCrit .length c kw) ∧
    (∀ c, newNorm kw = .ok (.norm c) ↔ SelectsCrit .sum c kw) ∧
    ((∀ k ∈ kw.keys, k = "criterion") → (∀ c, ¬ SelectsCrit .length c kw) → newRowNorm kw = .error .valueError) ∧
    ((∀ k ∈ kw.keys, k = "criterion") → (∀ c, ¬ SelectsCrit .sum c kw) → newNorm kw = .error .valueError) := by
  have e : (∀ k ∈ kw.keys, k = "criterion") → ∀ k ∈ kw.keys, k ∈ ["criterion"] := fun h k hk => by simp [h k hk]
  refine ⟨fun c => ?_, fun c => ?_, fun hk h => ?_, fun hk h => ?_⟩
  · rw [← critKw_ok]
    unfold newRowNorm
    cases critKw Crit.length kw with
    | error e => exact ⟨fun h => (by cases h), fun h => (by cases h)⟩
    | ok d => exact ⟨fun h => (by cases h; rfl), fun h => (by cases h; rfl)⟩
  · rw [← critKw_ok]
    unfold newNorm
    cases critKw Crit.sum kw with
    | error e => exact ⟨fun h => (by cases h), fun h => (by cases h)⟩
    | ok d => exact ⟨fun h => (by cases h; rfl), fun h => (by cases h; rfl)⟩
  · unfold newRowNorm
    rw [critKw_error (e hk) h]; rfl
  · unfold newNorm
    rw [critKw_error (e hk) h]; rfl

/-- **C109** `TopFeatureSelection`, `Svd`, `Nmf`: an integer dimension is accepted exactly when it is positive, and
kept; a dimension that is not positive (`False` is 0) is `ValueError`, `None` is `TypeError`, whatever the keywords are;
the criterion is `sum` unless given, any other value of the keyword is `ValueError`. -/
theorem C109_dimension (z : ℤ) (x : ℝ) (kw : Kwargs κ) :
    (z ≤ 0 → checkDimArg (.int z) = .error .valueError ∧ newTop (.int z) kw = .error .valueError) ∧
    (x ≤ 0 → checkDimArg (.float x) = .error .valueError ∧ newTop (.float x) kw = .error .valueError) ∧
    (0 < z → checkDimArg (.int z) = .ok (.int z) ∧
      (∀ d c, newTop (.int z) kw = .ok (d, c) ↔ d = .int z ∧ SelectsCrit .sum c kw) ∧
      ((∀ k ∈ kw.keys, k = "criterion") → (∀ c, ¬ SelectsCrit .sum c kw) → newTop (.int z) kw = .error .valueError)) ∧
    (checkDimArg (.bool false) = .error .valueError ∧ newTop (.bool false) kw = .error .valueError) ∧
    checkDimArg .none = .error .typeError ∧ newTop .none kw = .error .typeError := by
  refine ⟨fun h => ?_, fun h => ?_, fun h => ?_, ⟨rfl, rfl⟩, rfl, rfl⟩
  · have e : checkDimArg (.int z) = .error .valueError := by rw [checkDimArg, if_pos h]
    exact ⟨e, by unfold newTop; rw [e]; rfl⟩
  · have e : checkDimArg (.float x) = .error .valueError := by rw [checkDimArg, if_pos h]
    exact ⟨e, by unfold newTop; rw [e]; rfl⟩
  · have e : checkDimArg (.int z) = .ok (.int z) := by rw [checkDimArg, if_neg (by omega)]
    refine ⟨e, fun d c => ?_, fun hk hc => ?_⟩
    swap
    · unfold newTop
      rw [e, ok_bind, critKw_error (fun k hk' => by simp [hk k hk']) hc]
      rfl
    rw [← critKw_ok]
    unfold newTop
    rw [e, ok_bind]
    cases critKw Crit.sum kw with
    | error e => exact ⟨fun h => (by cases h), fun h => (by cases h.2)⟩
    | ok d' =>
      constructor
      · intro h; cases h; exact ⟨rfl, rfl⟩
      · rintro ⟨rfl, h⟩; cases h; rfl

/-- **C109** the setters: `regression_learner` accepts learners only (`TypeError`), `MIN_SAMPLES` integers only
(`ValueError`), and each sets nothing else. -/
theorem C109_setters (o : LexObj κ) (v : PyVal κ) :
    (∀ l, o.setLearner (.learner l) = .ok { o with learner := .learner l }) ∧
    ((∀ l, v ≠ .learner l) → o.setLearner v = .error .typeError) ∧
    (∀ z, o.setMinSamples (.int z) = .ok { o with minSamples := z }) ∧
    ((∀ z, v ≠ .int z) → (∀ b, v ≠ .bool b) → o.setMinSamples v = .error .valueError) ∧
    ∀ (c : Composer κ) a b i l0, c.model = .fullAdditive a b i l0 →
      (∀ l, setFullAddLearner c (.learner l) = .ok ⟨.fullAdditive a b i (some l), c.columns⟩) ∧
      ((∀ l, v ≠ .learner l) → setFullAddLearner c v = .error .typeError) := by
  refine ⟨fun _ => rfl, fun h => ?_, fun _ => rfl, fun h1 h2 => ?_, fun c a b i l0 hc => ⟨fun l => ?_, fun h => ?_⟩⟩
  · cases v <;> first | rfl | exact absurd rfl (h _)
  · cases v <;> first | rfl | exact absurd rfl (h1 _) | exact absurd rfl (h2 _)
  · simp only [setFullAddLearner, hc]
  · cases v <;> first | (simp only [setFullAddLearner, hc]; done) | exact absurd rfl (h _)

/-- Non-vacuity of C109: `RowNormalization(criterion="sum")`, `RowNormalization(criterion="max")`,
`RowNormalization(norm="sum")`. -/
example : newRowNorm (kw1 (κ := String) "criterion" (.str "sum")) = .ok (.rowNorm .sum) ∧
    newRowNorm (kw1 (κ := String) "criterion" (.str "max")) = .error .valueError ∧
    newRowNorm (kw1 (κ := String) "norm" (.str "sum")) = .error .invalidArgumentError := by
  refine ⟨(C109_criterion _).1 _ |>.2 (Or.inr ⟨rfl, rfl⟩), (C109_criterion _).2.2.1 ?_ ?_, ?_⟩
  · intro k hk
    have : k ∈ ["criterion"] := hk
    simpa using this
  · rintro c (⟨h, _⟩ | ⟨_, h⟩)
    · have : ["criterion"] = [] := h
      cases this
    · have h' : some (PyVal.str (κ := String) "max") = some (.str (critName c)) := h
      cases c <;> simp [critName] at h'
  · exact ((C109_unknown_keyword _).1 ⟨"norm", by show "norm" ∈ ["norm"]; simp, by simp⟩).1

/-! ### C110 -/

/-- `LexicalFunction(**kwargs)`: every argument has its documented type and is stored. -/
structure LexArgsUsed (kw : Kwargs κ) (o : LexObj κ) : Prop where
  space : ∀ v, kw.get? "function_space" = some v → ∃ s, v = .space s ∧ o.functions = some s
  intercept : ∀ v, kw.get? "intercept" = some v → v = .bool o.intercept
  learner : ∀ v, kw.get? "learner" = some v → ∃ l, v = .learner l ∧ o.learner = .learner l

/-- The matrix that a matrix-like value stands for. -/
def MatArg.content : MatArg → Mat ℝ
  | obj t => t.val
  | numpy A => A
  | scipy A => A

/-- `FullAdditive(**kwargs)`: every argument has its documented type and is stored. -/
structure FullArgsUsed (kw : Kwargs κ) (c : Composer κ) : Prop where
  matA : ∀ v, kw.get? "A" = some v → ∃ m at_ bt i l, v = .mat m ∧ c.model = .fullAdditive (some at_) bt i l ∧
    at_.val = m.content.transpose
  matB : ∀ v, kw.get? "B" = some v → ∃ m at_ bt i l, v = .mat m ∧ c.model = .fullAdditive at_ (some bt) i l ∧
    bt.val = m.content.transpose
  learner : ∀ v, kw.get? "learner" = some v → ∃ l at_ bt i, v = .learner l ∧ c.model = .fullAdditive at_ bt i (some l)

/-- **C110** is false: `LexicalFunction(learner=5)` succeeds and keeps the number, and `train` then fails with
`AttributeError`. -/
theorem C110_lexical_refuted : ¬ ∀ (kw : Kwargs κ) (o : LexObj κ), newLexical kw = .ok o → LexArgsUsed kw o := by
  intro h
  have := (h (kw1 "learner" (.int 5)) ⟨.int 5, [], none, false, 1⟩ rfl).learner (.int 5) rfl
  obtain ⟨l, hl, _⟩ := this
  cases hl

/-- **C110** is false: `FullAdditive(A=m)` succeeds and ignores the matrix. -/
theorem C110_full_additive_refuted :
    ¬ ∀ (kw : Kwargs κ) (c : Composer κ), newFullAdd kw = .ok c → FullArgsUsed kw c := by
  intro h
  have := (h (kw1 "A" (.mat (.numpy (Mat.of 1 1 (fun _ _ => 2))))) (newFullAdditiveLearner (.lstsq true)) rfl).matA _ rfl
  obtain ⟨m, a, b, i, l, _, hm, _⟩ := this
  cases hm

theorem kwSpace_ok {kw : Kwargs κ} {s : Option (Space κ)} (h : kwSpace kw = .ok s) :
    (∀ v, kw.get? "function_space" = some v → ∃ t, v = .space t ∧ s = some t) ∧
    (kw.get? "function_space" = none → s = none) := by
  unfold kwSpace at h
  cases hg : kw.get? "function_space" with
  | none => rw [hg] at h; exact ⟨fun v hv => (by cases hv), fun _ => (ok_inj h).symm⟩
  | some v =>
    rw [hg] at h
    cases v <;> first | cases h | skip
    exact ⟨fun v hv => ⟨_, (Option.some.inj hv).symm, rfl⟩, fun hv => (by cases hv)⟩

theorem kwIntercept_ok {kw : Kwargs κ} {i : Bool} (h : kwIntercept kw = .ok i) :
    (∀ v, kw.get? "intercept" = some v → v = .bool i) ∧ (kw.get? "intercept" = none → i = false) := by
  unfold kwIntercept at h
  cases hg : kw.get? "intercept" with
  | none => rw [hg] at h; exact ⟨fun v hv => (by cases hv), fun _ => (ok_inj h).symm⟩
  | some v =>
    rw [hg] at h
    cases v <;> first | cases h | skip
    exact ⟨fun v hv => (Option.some.inj hv).symm, fun hv => (by cases hv)⟩

/-- **C110**, the true part for `LexicalFunction`: the function space and the intercept flag are checked (`TypeError`)
and used, absent ones are `None` and `False`, the learner is kept as given (least squares with intercept by default),
a learner together with a function space is refused; a successful call has used every argument, except that the type
of the learner is not checked. -/
theorem C110_lexical_partial (kw : Kwargs κ) (o : LexObj κ) (h : newLexical kw = .ok o) :
    (∀ v, kw.get? "function_space" = some v → ∃ s, v = .space s ∧ o.functions = some s) ∧
    (kw.get? "function_space" = none → o.functions = none) ∧
    (∀ v, kw.get? "intercept" = some v → v = .bool o.intercept) ∧
    (kw.get? "intercept" = none → o.intercept = false) ∧
    (∀ v, kw.get? "learner" = some v → o.learner = v ∧ kw.get? "function_space" = none) ∧
    (kw.get? "learner" = none → o.learner = .learner (.lstsq true)) ∧
    ((∀ v, kw.get? "learner" = some v → ∃ l, v = .learner l) → LexArgsUsed kw o) := by
  unfold newLexical at h
  obtain ⟨_, _, h⟩ := bind_eq_ok.1 h
  obtain ⟨s, hs, h⟩ := bind_eq_ok.1 h
  obtain ⟨i, hi, h⟩ := bind_eq_ok.1 h
  obtain ⟨l, hl, h⟩ := bind_eq_ok.1 h
  obtain rfl := ok_inj h
  obtain ⟨s1, s2⟩ := kwSpace_ok hs
  obtain ⟨i1, i2⟩ := kwIntercept_ok hi
  have hl1 : ∀ v, kw.get? "learner" = some v → l = v ∧ kw.get? "function_space" = none := by
    intro v hv
    unfold kwLexLearner at hl
    rw [hv] at hl
    simp only at hl
    split at hl
    · cases hl
    · rename_i hc
      refine ⟨(ok_inj hl).symm, ?_⟩
      by_contra hne
      apply hc
      obtain ⟨w, hw⟩ := Option.ne_none_iff_exists'.1 hne
      unfold Dict.get? at hw
      obtain ⟨e, he, _⟩ := Option.map_eq_some_iff.1 hw
      have h1 := List.mem_of_find?_eq_some he
      have h2 := List.find?_some he
      unfold Dict.contains Dict.keys
      rw [decide_eq_true_eq]
      exact List.mem_map.2 ⟨e, h1, by simpa using h2⟩
  have hl2 : kw.get? "learner" = none → l = .learner (.lstsq true) := by
    intro hv
    unfold kwLexLearner at hl
    rw [hv] at hl
    exact (ok_inj hl).symm
  refine ⟨s1, s2, i1, i2, hl1, hl2, fun hty => ⟨s1, i1, fun v hv => ?_⟩⟩
  obtain ⟨l', rfl⟩ := hty v hv
  exact ⟨l', rfl, (hl1 _ hv).1⟩

/-- **C110**, the true part: what is wrongly typed and is refused at once. -/
theorem C110_lexical_refuses_partial (kw : Kwargs κ) (hk : ¬ Misspelt ["function_space", "intercept", "learner"] kw) :
    ((∃ v, kw.get? "function_space" = some v ∧ ∀ s, v ≠ .space s) → newLexical kw = .error .typeError) ∧
    ((∃ v, kw.get? "intercept" = some v ∧ ∀ b, v ≠ .bool b) → newLexical kw = .error .typeError) := by
  have hv : assertValidKwargs kw.keys ["function_space", "intercept", "learner"] = .ok () :=
    validKw_ok (fun k hk' => by by_contra hn; exact hk ⟨k, hk', hn⟩)
  have h1 : (∃ v, kw.get? "function_space" = some v ∧ ∀ s, v ≠ .space s) → kwSpace kw = .error .typeError := by
    rintro ⟨v, hg, hn⟩
    unfold kwSpace
    rw [hg]
    cases v <;> first | rfl | exact absurd rfl (hn _)
  constructor
  · intro h
    unfold newLexical
    rw [hv, ok_bind, h1 h]; rfl
  · rintro ⟨v, hg, hn⟩
    unfold newLexical
    rw [hv, ok_bind]
    have h2 : kwIntercept kw = .error .typeError := by
      unfold kwIntercept
      rw [hg]
      cases v <;> first | rfl | exact absurd rfl (hn _)
    by_cases hs : ∃ v, kw.get? "function_space" = some v ∧ ∀ s, v ≠ .space s
    · rw [h1 hs]; rfl
    · have : ∃ s, kwSpace kw = .ok s := by
        unfold kwSpace
        cases hgs : kw.get? "function_space" with
        | none => exact ⟨_, rfl⟩
        | some w =>
          by_contra hne
          refine hs ⟨w, hgs, fun s hws => hne ?_⟩
          subst hws
          exact ⟨_, rfl⟩
      obtain ⟨s, hs'⟩ := this
      rw [hs', ok_bind, h2]; rfl

theorem content_toTy {m : MatArg} {ty : MTy} {t : TMat ℝ} (h : m.toTy ty = .ok t) : t.ty = ty ∧ t.val = m.content := by
  cases m with
  | obj s =>
    cases ty with
    | dense => cases h; exact ⟨rfl, rfl⟩
    | sparse =>
      simp only [MatArg.toTy, TMat.toType, TMat.toSparse] at h
      cases hs : s.ty with
      | sparse => simp only [hs] at h; obtain rfl := ok_inj h; exact ⟨hs, rfl⟩
      | dense =>
        simp only [hs, TMat.ofNumpy] at h
        split at h
        · cases h
        · cases h; exact ⟨rfl, rfl⟩
  | numpy A =>
    simp only [MatArg.toTy, TMat.ofNumpy] at h
    split at h
    · cases h
    · cases h; exact ⟨rfl, rfl⟩
  | scipy A => cases h; exact ⟨rfl, rfl⟩

theorem content_compatible {a b : MatArg} {x y : TMat ℝ} (h : MatArg.toCompatible a b = .ok (x, y)) :
    x.val = a.content ∧ y.val = b.content ∧ x.ty = y.ty := by
  unfold MatArg.toCompatible at h
  obtain ⟨x', h1, h⟩ := bind_eq_ok.1 h
  obtain ⟨y', h2, h⟩ := bind_eq_ok.1 h
  obtain ⟨rfl, rfl⟩ := Prod.mk.inj (ok_inj h)
  cases a with
  | obj s =>
    obtain rfl := ok_inj h1
    obtain ⟨e1, e2⟩ := content_toTy (show b.toTy s.ty = .ok y' from h2)
    exact ⟨rfl, e2, e1.symm⟩
  | numpy A =>
    cases b with
    | obj t =>
      obtain rfl := ok_inj h2
      obtain ⟨e1, e2⟩ := content_toTy (show (MatArg.numpy A).toTy t.ty = .ok x' from h1)
      exact ⟨e2, rfl, e1⟩
    | numpy B =>
      obtain ⟨e1, e2⟩ := content_toTy (show (MatArg.numpy A).toTy .dense = .ok x' from h1)
      obtain ⟨f1, f2⟩ := content_toTy (show (MatArg.numpy B).toTy x'.ty = .ok y' from h2)
      exact ⟨e2, f2, f1.symm⟩
    | scipy B =>
      obtain ⟨e1, e2⟩ := content_toTy (show (MatArg.numpy A).toTy .dense = .ok x' from h1)
      obtain ⟨f1, f2⟩ := content_toTy (show (MatArg.scipy B).toTy x'.ty = .ok y' from h2)
      exact ⟨e2, f2, f1.symm⟩
  | scipy A =>
    cases b with
    | obj t =>
      obtain rfl := ok_inj h2
      obtain ⟨e1, e2⟩ := content_toTy (show (MatArg.scipy A).toTy t.ty = .ok x' from h1)
      exact ⟨e2, rfl, e1⟩
    | numpy B =>
      obtain rfl := ok_inj (show Except.ok (⟨.sparse, A⟩ : TMat ℝ) = .ok x' from h1)
      obtain ⟨f1, f2⟩ := content_toTy (show (MatArg.numpy B).toTy .sparse = .ok y' from h2)
      exact ⟨rfl, f2, f1.symm⟩
    | scipy B =>
      obtain rfl := ok_inj (show Except.ok (⟨.sparse, A⟩ : TMat ℝ) = .ok x' from h1)
      obtain ⟨f1, f2⟩ := content_toTy (show (MatArg.scipy B).toTy .sparse = .ok y' from h2)
      exact ⟨rfl, f2, f1.symm⟩

theorem wrap_val {ty : MTy} {A : Mat ℝ} {t : TMat ℝ} (h : TMat.wrap ty A = .ok t) : t.ty = ty ∧ t.val = A := by
  cases ty with
  | dense =>
    simp only [TMat.wrap] at h
    split at h
    · cases h
    · obtain rfl := ok_inj h; exact ⟨rfl, rfl⟩
  | sparse => cases h; exact ⟨rfl, rfl⟩

/-- **C110**, the true part for `FullAdditive`: with both `A` and `B` they must be matrix-like (of any kind, dense or
sparse, otherwise `TypeError`), and the model stores their transposes, in one common type, without intercept; the
learner argument is then ignored. Without `A` or without `B`, the learner is used, least squares with intercept by
default, any other object is refused with `AttributeError`; a single matrix is then ignored. -/
theorem C110_full_additive_partial (kw : Kwargs κ) (c : Composer κ) (h : newFullAdd kw = .ok c) :
    (∀ va vb, kw.get? "A" = some va → kw.get? "B" = some vb → ∃ a b at_ bt, va = .mat a ∧ vb = .mat b ∧
      c = ⟨.fullAdditive (some at_) (some bt) false none, none⟩ ∧ at_.val = a.content.transpose ∧
      bt.val = b.content.transpose ∧ at_.ty = bt.ty) ∧
    ((kw.get? "A" = none ∨ kw.get? "B" = none) →
      (kw.get? "learner" = none ∧ c = newFullAdditiveLearner (.lstsq true)) ∨
      ∃ l, kw.get? "learner" = some (.learner l) ∧ c = newFullAdditiveLearner l) := by
  unfold newFullAdd at h
  obtain ⟨_, _, h⟩ := bind_eq_ok.1 h
  constructor
  · intro va vb ha hb
    rw [ha, hb] at h
    simp only at h
    cases va <;> first | cases h | skip
    cases vb <;> first | cases h | skip
    rename_i a b
    simp only [fullAddMats] at h
    obtain ⟨⟨a', b'⟩, h1, h⟩ := bind_eq_ok.1 h
    obtain ⟨at_, h2, h⟩ := bind_eq_ok.1 h
    obtain ⟨bt, h3, h⟩ := bind_eq_ok.1 h
    obtain rfl := ok_inj h
    obtain ⟨e1, e2, e3⟩ := content_compatible h1
    obtain ⟨f1, f2⟩ := wrap_val h2
    obtain ⟨g1, g2⟩ := wrap_val h3
    exact ⟨a, b, at_, bt, rfl, rfl, rfl, by rw [f2, e1], by rw [g2, e2], by rw [f1, g1, e3]⟩
  · intro hn
    have hl : fullAddLearner kw = .ok c := by
      rcases hn with hn | hn <;> rw [hn] at h
      · exact h
      · cases hA : kw.get? "A" with
        | none => rw [hA] at h; exact h
        | some v => rw [hA] at h; exact h
    unfold fullAddLearner at hl
    cases hg : kw.get? "learner" with
    | none => rw [hg] at hl; exact Or.inl ⟨rfl, (ok_inj hl).symm⟩
    | some v =>
      rw [hg] at hl
      cases v with
      | learner l => exact Or.inr ⟨l, rfl, (ok_inj hl).symm⟩
      | _ => cases hl

/-- **C110**, the true part: two non-empty matrix-like arguments of whatever kind are always accepted. -/
theorem C110_full_additive_accepts_partial (kw : Kwargs κ) (a b : MatArg) (hk : ¬ Misspelt ["A", "B", "learner"] kw)
    (ha : kw.get? "A" = some (.mat a)) (hb : kw.get? "B" = some (.mat b))
    (a1 : 0 < a.content.nr) (a2 : 0 < a.content.nc) (b1 : 0 < b.content.nr) (b2 : 0 < b.content.nc) :
    ∃ c, newFullAdd kw = .ok c := by
  have hT : ∀ (m : MatArg) (ty : MTy), 0 < m.content.nr → 0 < m.content.nc → ∃ t : TMat ℝ, m.toTy ty = .ok t := by
    intro m ty h1 h2
    cases m with
    | obj t =>
      cases ty with
      | dense => exact ⟨_, rfl⟩
      | sparse =>
        simp only [MatArg.toTy, TMat.toType, TMat.toSparse]
        cases t.ty with
        | sparse => exact ⟨_, rfl⟩
        | dense =>
          refine ⟨⟨.sparse, t.val⟩, ?_⟩
          show TMat.ofNumpy _ _ = _
          unfold TMat.ofNumpy
          rw [if_neg]
          have e1 : 0 < t.val.nr := h1
          have e2 : 0 < t.val.nc := h2
          omega
    | numpy A =>
      refine ⟨⟨ty, A⟩, ?_⟩
      show TMat.ofNumpy _ _ = _
      unfold TMat.ofNumpy
      rw [if_neg]
      have e1 : 0 < A.nr := h1
      have e2 : 0 < A.nc := h2
      omega
    | scipy A => exact ⟨_, rfl⟩
  have hcomp : ∃ x y, MatArg.toCompatible a b = .ok (x, y) := by
    have hf : ∃ x, MatArg.firstOf a b = .ok x := by
      cases a with
      | obj s => exact ⟨_, rfl⟩
      | numpy A => cases b <;> exact hT _ _ a1 a2
      | scipy A => cases b <;> exact ⟨_, rfl⟩
    obtain ⟨x, hx⟩ := hf
    have hs : ∃ y, MatArg.secondOf x a b = .ok y := by
      cases a with
      | obj s => exact hT b _ b1 b2
      | numpy A => cases b <;> first | exact ⟨_, rfl⟩ | exact hT _ _ b1 b2
      | scipy A => cases b <;> first | exact ⟨_, rfl⟩ | exact hT _ _ b1 b2
    obtain ⟨y, hy⟩ := hs
    refine ⟨x, y, ?_⟩
    unfold MatArg.toCompatible
    rw [hx, ok_bind, hy, ok_bind]
    rfl
  obtain ⟨x, y, hxy⟩ := hcomp
  obtain ⟨e1, e2, _⟩ := content_compatible hxy
  have hw : ∀ t : TMat ℝ, 0 < t.val.nr → 0 < t.val.nc → t.transpose = .ok ⟨t.ty, t.val.transpose⟩ := by
    intro t h1 h2
    exact TMat.wrap_ok_pos h2 h1
  unfold newFullAdd
  rw [validKw_ok (fun k hk' => by by_contra hn; exact hk ⟨k, hk', hn⟩), ok_bind, ha, hb]
  show ∃ c, fullAddMats _ _ = .ok c
  unfold fullAddMats
  simp only
  rw [hxy, ok_bind]
  simp only
  rw [hw x (by rw [e1]; exact a1) (by rw [e1]; exact a2), ok_bind, hw y (by rw [e2]; exact b1) (by rw [e2]; exact b2), ok_bind]
  exact ⟨_, rfl⟩

/-- Non-vacuity of C110: a sparse matrix object and a numpy matrix. -/
example : ∃ c : Composer String, newFullAdd ((kw1 "A" (.mat (.obj ⟨.sparse, Mat.of 2 3 (fun _ _ => 1)⟩))).set "B"
    (.mat (.numpy (Mat.of 2 3 (fun _ _ => 1))))) = .ok c := by
  refine C110_full_additive_accepts_partial _ (.obj ⟨.sparse, Mat.of 2 3 (fun _ _ => 1)⟩) (.numpy (Mat.of 2 3 (fun _ _ => 1)))
    ?_ rfl rfl ?_ ?_ ?_ ?_
  · rintro ⟨k, hk, hn⟩
    have : k ∈ ["A", "B"] := hk
    apply hn
    simp only [List.mem_cons, List.not_mem_nil, or_false] at this ⊢
    tauto
  all_goals show 0 < _; simp [MatArg.content, Mat.of]

theorem Dict.contains_of_get? {kw : Kwargs κ} {k : String} {v : PyVal κ} (h : kw.get? k = some v) : kw.contains k = true := by
  unfold Dict.get? at h
  obtain ⟨e, he, _⟩ := Option.map_eq_some_iff.1 h
  unfold Dict.contains Dict.keys
  rw [decide_eq_true_eq]
  exact List.mem_map.2 ⟨e, List.mem_of_find?_eq_some he, by simpa using List.find?_some he⟩

/-- **C110**, the true part: a learner given together with a function space is `ValueError` (when the other arguments have
their types); a learner that is not one is noticed by `train`, with `AttributeError`, whatever the data are. -/
theorem C110_lexical_learner_partial (kw : Kwargs κ) (hk : ¬ Misspelt ["function_space", "intercept", "learner"] kw) :
    (∀ s l, kw.get? "function_space" = some (.space s) → kw.get? "learner" = some l →
      (∀ v, kw.get? "intercept" = some v → ∃ b, v = .bool b) → newLexical kw = .error .valueError) ∧
    ∀ o, newLexical kw = .ok o → (∀ l, o.learner ≠ .learner l) → ∀ env le data arg phrase,
      o.train env le data arg phrase = .error .attributeError := by
  have hv : assertValidKwargs kw.keys ["function_space", "intercept", "learner"] = .ok () :=
    validKw_ok (fun k hk' => by by_contra hn; exact hk ⟨k, hk', hn⟩)
  refine ⟨fun s l hs hl hi => ?_, fun o _ hn env le data arg phrase => ?_⟩
  · have h1 : kwSpace kw = .ok (some s) := by unfold kwSpace; rw [hs]
    have h2 : ∃ b, kwIntercept kw = .ok b := by
      unfold kwIntercept
      cases hg : kw.get? "intercept" with
      | none => exact ⟨_, rfl⟩
      | some v =>
        obtain ⟨b, rfl⟩ := hi v hg
        exact ⟨_, rfl⟩
    obtain ⟨b, h2⟩ := h2
    have h3 : kwLexLearner kw = .error .valueError := by
      unfold kwLexLearner
      rw [hl]
      show (if kw.contains "function_space" then _ else _) = _
      rw [if_pos (Dict.contains_of_get? hs)]
    unfold newLexical
    rw [hv, ok_bind, h1, ok_bind, h2, ok_bind, h3]
    rfl
  · obtain ⟨l, c, f, i, n⟩ := o
    unfold LexObj.train
    cases l <;> first | rfl | exact absurd rfl (hn _)

/-- **C110**, the true part: `FullAdditive` refuses two arguments of which one is not matrix-like with `TypeError`, and a
learner that is not one with `AttributeError` (unless both matrices are given). -/
theorem C110_full_additive_refuses_partial (kw : Kwargs κ) (hk : ¬ Misspelt ["A", "B", "learner"] kw) :
    (∀ a b, kw.get? "A" = some a → kw.get? "B" = some b → ((∀ m, a ≠ .mat m) ∨ ∀ m, b ≠ .mat m) →
      newFullAdd kw = .error .typeError) ∧
    (∀ v, (kw.get? "A" = none ∨ kw.get? "B" = none) → kw.get? "learner" = some v → (∀ l, v ≠ .learner l) →
      newFullAdd kw = .error .attributeError) := by
  have hv : assertValidKwargs kw.keys ["A", "B", "learner"] = .ok () :=
    validKw_ok (fun k hk' => by by_contra hn; exact hk ⟨k, hk', hn⟩)
  refine ⟨fun a b ha hb hn => ?_, fun v hn hl hv' => ?_⟩
  · unfold newFullAdd
    rw [hv, ok_bind, ha, hb]
    show fullAddMats a b = _
    rcases hn with hn | hn
    · cases a <;> first | rfl | exact absurd rfl (hn _)
    · cases b <;> first | exact absurd rfl (hn _) | (cases a <;> rfl)
  · have hlr : fullAddLearner kw = .error .attributeError := by
      unfold fullAddLearner
      rw [hl]
      cases v <;> first | rfl | exact absurd rfl (hv' _)
    unfold newFullAdd
    rw [hv, ok_bind]
    rcases hn with hn | hn <;> rw [hn]
    · exact hlr
    · cases kw.get? "A" <;> exact hlr

/-- Non-vacuity: `LexicalFunction(function_space=s, learner=3)`, `LexicalFunction(learner=3)`, `FullAdditive(A=1, B=2)`,
`FullAdditive(learner=3)`. -/
example (s : Space String) :
    newLexical ((kw1 "function_space" (.space s)).set "learner" (.int 3)) = .error .valueError ∧
    (∃ o, newLexical (kw1 (κ := String) "learner" (.int 3)) = .ok o ∧ ∀ env le data arg phrase,
      o.train env le data arg phrase = .error .attributeError) ∧
    newFullAdd (κ := String) ((kw1 "A" (.int 1)).set "B" (.int 2)) = .error .typeError ∧
    newFullAdd (κ := String) (kw1 "learner" (.int 3)) = .error .attributeError := by
  refine ⟨(C110_lexical_learner_partial _ ?_).1 s (.int 3) rfl rfl (fun v hv => by cases hv),
    ⟨⟨.int 3, [], none, false, 1⟩, rfl, (C110_lexical_learner_partial (kw1 "learner" (.int 3)) ?_).2 _ rfl
      (fun l h => by cases h)⟩,
    (C110_full_additive_refuses_partial _ ?_).1 (.int 1) (.int 2) rfl rfl (Or.inl fun m h => by cases h),
    (C110_full_additive_refuses_partial _ ?_).2 (.int 3) (Or.inl rfl) rfl (fun l h => by cases h)⟩
  · rintro ⟨k, hk, hn⟩
    have : k ∈ ["function_space", "learner"] := hk
    apply hn
    simp only [List.mem_cons, List.not_mem_nil, or_false] at this ⊢
    tauto
  · rintro ⟨k, hk, hn⟩
    have : k ∈ ["learner"] := hk
    apply hn
    simp only [List.mem_cons, List.not_mem_nil, or_false] at this ⊢
    tauto
  · rintro ⟨k, hk, hn⟩
    have : k ∈ ["A", "B"] := hk
    apply hn
    simp only [List.mem_cons, List.not_mem_nil, or_false] at this ⊢
    tauto
  · rintro ⟨k, hk, hn⟩
    have : k ∈ ["learner"] := hk
    apply hn
    simp only [List.mem_cons, List.not_mem_nil, or_false] at this ⊢
    tauto

/-! ### C111 -/

/-- The defaults that the documentation of the properties of `LexicalFunction` states (`lexical_function.py:258-295`):
at least 3 samples, `RidgeRegressionLearner(param=1)`, no function space, no intercept. -/
structure DocumentedDefaults (o : LexObj κ) : Prop where
  minSamples : o.minSamples = 3
  learner : ∃ r, o.learner = .learner (.ridge true false r (some 1))
  functions : o.functions = none
  intercept : o.intercept = false

/-- **C111** is false: a new `LexicalFunction` trains with one sample, by least squares. -/
theorem C111_refuted : ∃ o : LexObj κ, newLexical Dict.empty = .ok o ∧ ¬ DocumentedDefaults o ∧ o.minSamples ≠ 3 ∧
    ∀ r, o.learner ≠ .learner (.ridge true false r (some 1)) := by
  refine ⟨⟨.learner (.lstsq true), [], none, false, 1⟩, rfl, fun h => ?_, ?_, fun r h => (by cases h)⟩
  · have : (1 : ℤ) = 3 := h.minSamples
    omega
  · show (1 : ℤ) ≠ 3
    omega

/-- **C111**, the true part: no function space and no intercept; the learner is the one that the documentation of the
constructor states (`lexical_function.py:55-56`), the documentation of the property contradicts it. The other models
have their documented defaults: weights 1/2 (the second one minus the first if only that one is given), `FullAdditive`
a least-squares learner with intercept, `LstsqRegressionLearner` an intercept. -/
theorem C111_partial :
    (∃ o : LexObj κ, newLexical Dict.empty = .ok o ∧ o.functions = none ∧ o.intercept = false ∧
      o.learner = .learner (.lstsq true)) ∧
    newFullAdd (κ := κ) Dict.empty = .ok (newFullAdditiveLearner (.lstsq true)) ∧
    newLstsq (κ := κ) Dict.empty = .ok (.bool true) ∧
    newWeighted (κ := κ) .absent .absent = .ok ⟨.weighted (1 / 2) (1 / 2), none⟩ ∧
    (∀ a, newWeighted (κ := κ) (.num a) .absent = .ok ⟨.weighted a (1 - a), none⟩) ∧
    newDilation (κ := κ) .absent = .ok ⟨.dilation 2, none⟩ :=
  ⟨⟨⟨.learner (.lstsq true), [], none, false, 1⟩, rfl, rfl, rfl, rfl⟩, rfl, rfl, rfl, fun _ => rfl, rfl⟩

/-- **C111**, the true part for `train`: what a training gives depends on the learner only, not on a function space or
an intercept flag given to the constructor; all objects accept a function word with one sample. -/
theorem C111_train_partial (env : Env) (le : κ → κ → Bool) (kw : Kwargs κ) (o : LexObj κ) (l : Learner) (s : Space κ)
    (b : Bool) (h : newLexical kw = .ok o) (hl : o.learner = .learner l) (data : List (Triple κ)) (arg phrase : Space κ) :
    o.train env le data arg phrase = (LexFun.ofLearner l).train env le data arg phrase ∧
    (LexFun.ofSpace s b).train env le data arg phrase = (LexFun.ofLearner (.lstsq true)).train env le data arg phrase := by
  have hm : o.minSamples = 1 := by
    unfold newLexical at h
    simp only [bind_eq_ok, pure_eq_ok] at h
    obtain ⟨_, _, _, _, _, _, _, _, h⟩ := h
    obtain rfl := ok_inj h
    rfl
  refine ⟨?_, rfl⟩
  unfold LexObj.train
  rw [hl, hm]
  rfl

end
end Dissect
