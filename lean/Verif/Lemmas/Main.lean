import Verif.Lemmas.Jobs
import Verif.Lemmas.CoreNames
import Verif.Lemmas.Reading
import Verif.Lemmas.Regression
import Verif.Spec.Training

/-! Lemmas about the `main` functions and about loading and training. -/

namespace Dissect
noncomputable section

theorem main_bind_ok {α β : Type} {x : Main α} {f : α → Main β} {b : β} :
    (x >>= f) = .ok b ↔ ∃ a, x = .ok a ∧ f a = .ok b := by
  cases x with
  | error e => simp [bind, Except.bind]
  | ok a => simp [bind, Except.bind]

theorem lift_ok {α : Type} {x : Py α} {a : α} : Main.lift x = .ok a ↔ x = .ok a := by
  cases x <;> simp [Main.lift]

theorem require_ok {α : Type} {x : Option α} {a : α} : require x = .ok a ↔ x = some a := by
  cases x <;> simp [require]

theorem asStr_str (s : Str) : (OptVal.str s).asStr = some s := rfl
theorem asList_list (l : List Str) : (OptVal.list l).asList = some l := rfl
theorem strD_str (s : Str) : (OptVal.str s).strD = s := rfl
theorem lift_of_ok {α : Type} (a : α) : Main.lift (.ok a : Py α) = .ok a := rfl
theorem lift_of_error {α : Type} (e : PyErr) : Main.lift (.error e : Py α) = .error (.raised e) := rfl
theorem require_some {α : Type} (a : α) : require (some a) = .ok a := rfl
theorem require_none {α : Type} : require (none : Option α) = .error (.exit 1) := rfl

theorem lastComp_isBase (p : Str) : IsBase p (lastComp p) := lastComp_spec p

theorem main_ok_bind {α β : Type} (a : α) (f : α → Main β) : ((.ok a : Main α) >>= f) = f a := rfl
theorem main_error_bind {α β : Type} (e : MainErr) (f : α → Main β) : ((.error e : Main α) >>= f) = .error e := rfl

theorem loadSpace_ok {L : Lib} {fs : Fs} {f : Str} {s : Space Str} : loadSpace L fs f = .ok s ↔ HoldsSpace L fs f s := by
  unfold loadSpace HoldsSpace Fs.load
  cases hr : fs.read f with
  | error e => simp
  | ok txt =>
    simp only [ok_bind, Except.ok.injEq, exists_eq_left']
    cases hu : L.undump txt with
    | none => simp
    | some o => cases o <;> simp

/-- The argument spaces made of one or two spaces. -/
def argsOf (s : Space Str) : Option (Space Str) → ArgSpace Str
  | none => .one s
  | some t => .tuple [s, t]

theorem loadSecond_args {L : Lib} {fs : Fs} {f : Str} {gs : List Str} {s : Space Str} {o : Option (Space Str)}
    (h1 : loadSpace L fs f = .ok s) (h2 : loadSecond L fs (f :: gs) = .ok o) :
    ArgsFrom L fs (f :: gs) s (argsOf s o) := by
  have hs := loadSpace_ok.1 h1
  match gs, h2 with
  | [], h2 => obtain rfl := ok_inj h2; exact .one hs (by simp)
  | [g], h2 =>
    simp only [loadSecond, bind_eq_ok, pure_eq_ok] at h2
    obtain ⟨t, ht, h⟩ := h2
    obtain rfl := ok_inj h
    exact .two hs (loadSpace_ok.1 ht)
  | g :: g' :: gs, h2 => obtain rfl := ok_inj h2; exact .one hs (by simp)

theorem pyFloat_ok {io : NumIO} {s : Str} {x : ℝ} : pyFloat io s = .ok x ↔ io.parse s = some x := by
  unfold pyFloat
  cases io.parse s <;> simp

theorem floatOpt_ok {io : NumIO} {v : OptVal} {x : Option ℝ} : floatOpt io v.asStr = .ok x ↔ NumOpt io v x := by
  unfold NumOpt floatOpt
  cases v.asStr with
  | none => simp [eq_comm]
  | some s =>
    simp only [bind_eq_ok, pyFloat_ok, pure_eq_ok, Except.ok.injEq]
    constructor
    · rintro ⟨y, h1, h2⟩; exact ⟨y, h1, h2.symm⟩
    · rintro ⟨y, h1, h2⟩; exact ⟨y, h1, h2.symm⟩

theorem floatList_ok {io : NumIO} : ∀ {l : List Str} {ys : List ℝ},
    floatList io l = .ok ys ↔ List.Forall₂ (fun s y => io.parse s = some y) l ys := by
  intro l
  induction l with
  | nil => intro ys; simp [floatList, eq_comm]
  | cons s ss ih =>
    intro ys
    simp only [floatList, bind_eq_ok, pyFloat_ok, pure_eq_ok]
    constructor
    · rintro ⟨y, h1, ys', h2, h⟩
      obtain rfl := ok_inj h
      exact .cons h1 (ih.1 h2)
    · rintro (_ | ⟨h1, h2⟩)
      exact ⟨_, h1, _, ih.2 h2, rfl⟩

/-- The learner without a parameter never trains. -/
theorem noParam_train {env : Env} {ic : Bool} {r : List ℝ} {a b : TMat ℝ} :
    Learner.train env (.ridge ic false r none) a b = .error .typeError := rfl

theorem full_noParam {env : Env} {ic : Bool} {r : List ℝ} {data : List (Triple Str)} {args : ArgSpace Str}
    {phrase : Space Str} {c : Composer Str} :
    Composer.train env (newFullAdditiveLearner (.ridge ic false r none)) data args phrase ≠ .ok c := by
  intro h
  replace h := (Composer.train_inv h).2
  simp only [Composer.trainShared, bind_eq_ok] at h
  obtain ⟨⟨s1, s2⟩, _, ⟨l1, l2, l3⟩, _, m, h3, _⟩ := h
  simp only [newFullAdditiveLearner, CModel.trainOn, bind_eq_ok] at h3
  obtain ⟨⟨m1, m2, mp⟩, _, h4⟩ := h3
  simp only [trainFull, bind_eq_ok, noParam_train] at h4
  obtain ⟨_, _, _, h5, _⟩ := h4
  cases h5

theorem lexLoop_noParam {env : Env} {ic : Bool} {r : List ℝ} {arg phrase : Space Str} {al pl : List Str} {size : ℕ}
    {ranges : List (ℕ × ℕ)} {rs : List (TMat ℝ × MTy)}
    (h : lexTrainLoop env (.ridge ic false r none) arg phrase al pl size ranges = .ok rs) : rs = [] := by
  cases ranges with
  | nil => obtain rfl := ok_inj h; rfl
  | cons be rest =>
    obtain ⟨b, e⟩ := be
    simp only [lexTrainLoop, lexTrainOne, bind_eq_ok] at h
    obtain ⟨x, ⟨am, _, pm, _, ms, _, h1⟩, _⟩ := h
    split at h1
    · simp only [noParam_train, error_bind] at h1
      cases h1
    · cases h1

theorem lex_noParam {env : Env} {le : Str → Str → Bool} {ic : Bool} {r : List ℝ} {data : List (Triple Str)}
    {arg phrase : Space Str} {m : LexFun Str} :
    LexFun.train env le (LexFun.ofLearner (.ridge ic false r none)) data arg phrase ≠ .ok m := by
  intro h
  simp only [LexFun.train, bind_eq_ok, LexFun.ofLearner] at h
  obtain ⟨⟨fl, al, pl⟩, _, ⟨keys, ranges⟩, _, h3⟩ := h
  split at h3
  · cases h3
  · split at h3
    · simp only [bind_eq_ok] at h3
      obtain ⟨rs, h4, h5⟩ := h3
      have := lexLoop_noParam h4
      subst this
      cases h5
    · cases h3

/-- The number of a parameter value. -/
def ParamVal.number : ParamVal → Option ℝ
  | .num x => some x
  | _ => Option.none

theorem makeLearner_doc {regression : Option Str} {cv ic : Bool} {param : ParamVal} {range : Option (List ℝ)} {l : Learner}
    (h : makeLearner regression cv ic param range = .ok l) :
    DocLearner regression cv ic param.number range l ∨
      (regression = some cs!"ridge" ∧ cv = false ∧ (∃ s, param = .text s) ∧ l = .ridge ic false (range.getD lambdaGrid) none) := by
  unfold makeLearner at h
  by_cases h1 : regression = some cs!"ridge"
  · rw [if_pos h1] at h
    subst h1
    cases param with
    | none =>
      simp only [Learner.newRidge, bind_eq_ok] at h
      obtain ⟨_, _, h⟩ := h
      cases cv
      · simp at h
      · simp only [Bool.true_eq_false, false_and, if_false, pure_eq_ok, Option.getD_some] at h
        obtain rfl := ok_inj h
        left
        cases range
        · show DocLearner _ _ _ _ _ (.ridge ic true Learner.defaultRange none)
          rw [defaultRange_eq]
          exact .ridgeCv (range := none) none
        · exact .ridgeCv (range := some _) none
    | num x =>
      simp only [Learner.newRidge, bind_eq_ok] at h
      obtain ⟨_, _, h⟩ := h
      simp only [reduceCtorEq, and_false, if_false, pure_eq_ok, Option.getD_some] at h
      obtain rfl := ok_inj h
      left
      cases range
      · cases cv
        · show DocLearner _ _ _ _ _ (.ridge ic false Learner.defaultRange (some x))
          rw [defaultRange_eq]
          exact .ridge (range := none)
        · show DocLearner _ _ _ _ _ (.ridge ic true Learner.defaultRange (some x))
          rw [defaultRange_eq]
          exact .ridgeCv (range := none) (some x)
      · cases cv
        · exact .ridge (range := some _)
        · exact .ridgeCv (range := some _) (some x)
    | text s =>
      simp only [defaultRange_eq] at h
      obtain rfl := ok_inj h
      cases cv
      · exact Or.inr ⟨rfl, rfl, ⟨s, rfl⟩, rfl⟩
      · exact Or.inl (.ridgeCv none)
  · rw [if_neg h1] at h
    left
    by_cases h2 : regression = some cs!"lstsq"
    · rw [if_pos h2] at h
      obtain rfl := ok_inj h
      subst h2
      exact .lstsq
    · rw [if_neg h2] at h
      obtain rfl := ok_inj h
      exact .default h1 h2

theorem trainObj_ok {L : Lib} {fs : Fs} {inFile model : Str} {arg : Space Str} {arg2 : Option (Space Str)} {phrase : Space Str}
    {regression : Option Str} {cv ic : Bool} {param : ParamVal} {range : Option (List ℝ)} {obj : PyObj}
    (h : trainObj L model arg arg2 phrase regression cv ic param range (fs.read inFile) = .ok obj) :
    ∃ txt data, fs.read inFile = .ok txt ∧ TriplesOf txt data ∧
      Trained L.env (DocLearner regression cv ic param.number range) arg
        (argsOf arg arg2) phrase data model obj := by
  have hread : ∀ {data : List (Triple Str)}, (fs.read inFile).bind readTriples = .ok data →
      ∃ txt, fs.read inFile = .ok txt ∧ TriplesOf txt data := by
    intro data hd
    obtain ⟨txt, h1, h2⟩ := bind_eq_ok.1 hd
    exact ⟨txt, h1, readTriples_ok.1 h2⟩
  unfold trainObj at h
  have hargs : (match arg2 with | none => .one arg | some a2 => .tuple [arg, a2]) = argsOf arg arg2 := by cases arg2 <;> rfl
  simp only [hargs] at h
  by_cases hm : model = cs!"weighted_add"
  · subst hm; rw [if_pos rfl] at h
    simp only [bind_eq_ok, pure_eq_ok] at h
    obtain ⟨c, hc, data, hd, c', ht, h⟩ := h
    obtain rfl := ok_inj hc
    obtain rfl := ok_inj h
    obtain ⟨txt, t1, t2⟩ := hread hd
    exact ⟨txt, data, t1, t2, .weighted ht⟩
  · rw [if_neg hm] at h; clear hm
    by_cases hm : model = cs!"dilation"
    · subst hm; rw [if_pos rfl] at h
      simp only [bind_eq_ok, pure_eq_ok] at h
      obtain ⟨c, hc, data, hd, c', ht, h⟩ := h
      obtain rfl := ok_inj hc
      obtain rfl := ok_inj h
      obtain ⟨txt, t1, t2⟩ := hread hd
      exact ⟨txt, data, t1, t2, .dilation ht⟩
    · rw [if_neg hm] at h; clear hm
      by_cases hm : model = cs!"full_add"
      · subst hm; rw [if_pos rfl] at h
        simp only [bind_eq_ok, pure_eq_ok] at h
        obtain ⟨l, hl, data, hd, c', ht, h⟩ := h
        obtain rfl := ok_inj h
        obtain ⟨txt, t1, t2⟩ := hread hd
        refine ⟨txt, data, t1, t2, .full (l := l) ?_ ht⟩
        rcases makeLearner_doc hl with hdoc | ⟨_, _, _, rfl⟩
        · exact hdoc
        · exact absurd ht full_noParam
      · rw [if_neg hm] at h; clear hm
        by_cases hm : model = cs!"lexical_func"
        · subst hm; rw [if_pos rfl] at h
          simp only [bind_eq_ok, pure_eq_ok] at h
          obtain ⟨l, hl, data, hd, c', ht, h⟩ := h
          obtain rfl := ok_inj h
          obtain ⟨txt, t1, t2⟩ := hread hd
          refine ⟨txt, data, t1, t2, .lexical (l := l) ?_ ht⟩
          rcases makeLearner_doc hl with hdoc | ⟨_, _, _, rfl⟩
          · exact hdoc
          · exact absurd ht lex_noParam
        · rw [if_neg hm] at h; cases h

end
end Dissect
