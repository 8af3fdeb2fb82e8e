import Verif.Model.ModelState
import Verif.Props.IdealTrain
import Verif.Props.Lexical

/-! # C135: a call on a composition model that raises leaves the model as it was -/

namespace Dissect
open Finset
noncomputable section
variable {κ : Type} [DecidableEq κ]

/-! ### The state after a call and its outcome agree with the description of the outcomes -/

theorem trainFullS_spec (env : Env) (a b : Option (TMat ℝ)) (i : Bool) (l : Option Learner) (m1 m2 p : TMat ℝ) :
    (∀ c', trainFull env l m1 m2 p = .ok c' → trainFullS env a b i l m1 m2 p = (c', .ok ())) ∧
    ∀ e, trainFull env l m1 m2 p = .error e → (trainFullS env a b i l m1 m2 p).2 = .error e := by
  cases l with
  | none => exact ⟨fun c' h => (by cases h), fun e h => (by cases h; rfl)⟩
  | some l =>
    unfold trainFull trainFullS splitRows
    simp only
    cases h1 : m1.hstack m2 with
    | error e => exact ⟨fun c' h => (by cases h), fun e' h => (by cases h; rfl)⟩
    | ok h' =>
      simp only [ok_bind]
      cases h2 : l.train env h' p with
      | error e => exact ⟨fun c' h => (by cases h), fun e' h => (by cases h; rfl)⟩
      | ok r =>
        simp only [ok_bind]
        cases h3 : TMat.wrap r.ty (r.val.selRows ((List.range r.nr).take m1.nc)) with
        | error e => exact ⟨fun c' h => (by cases h), fun e' h => (by cases h; rfl)⟩
        | ok x =>
          simp only [ok_bind]
          cases h4 : TMat.wrap r.ty (r.val.selRows ((List.range r.nr).drop m1.nc)) with
          | error e => exact ⟨fun c' h => (by cases h), fun e' h => (by cases h; rfl)⟩
          | ok y => exact ⟨fun c' h => (by cases h; rfl), fun e' h => (by cases h)⟩

theorem assignLast_spec (c : CModel) (x : Py CModel) :
    (∀ c', x = .ok c' → assignLast c x = (c', .ok ())) ∧ ∀ e, x = .error e → (assignLast c x).2 = .error e := by
  cases x with
  | error e => exact ⟨fun c' h => (by cases h), fun e' h => (by cases h; rfl)⟩
  | ok y => exact ⟨fun c' h => (by cases h; rfl), fun e' h => (by cases h)⟩

theorem trainOnS_spec (env : Env) (c : CModel) (s1 s2 p : Space κ) (l1 l2 l3 : List κ) :
    (∀ c', c.trainOn env s1 s2 p l1 l2 l3 = .ok c' → c.trainOnS env s1 s2 p l1 l2 l3 = (c', .ok ())) ∧
    ∀ e, c.trainOn env s1 s2 p l1 l2 l3 = .error e → (c.trainOnS env s1 s2 p l1 l2 l3).2 = .error e := by
  cases c with
  | multiplicative => exact ⟨fun c' h => (by cases h), fun e' h => (by cases h; rfl)⟩
  | weighted a b => exact assignLast_spec _ _
  | dilation x => exact assignLast_spec _ _
  | fullAdditive a b i l =>
    unfold CModel.trainOn CModel.trainOnS
    simp only
    cases h : sampleMats s1 s2 p l1 l2 l3 with
    | error e => exact ⟨fun c' h => (by cases h), fun e' h => (by cases h; rfl)⟩
    | ok m => exact trainFullS_spec env a b i l _ _ _

/-- The state-passing description of training has the outcomes and the results of `Composer.train`. -/
theorem trainS_spec (env : Env) (c : Composer κ) (data : List (Triple κ)) (args : ArgSpace κ) (phrase : Space κ) :
    (∀ c', c.train env data args phrase = .ok c' → c.trainS env data args phrase = (c', .ok ())) ∧
    ∀ e, c.train env data args phrase = .error e → (c.trainS env data args phrase).2 = .error e := by
  unfold Composer.train Composer.trainS
  by_cases ht : c.model.trainable = true
  · rw [if_pos ht, if_pos ht]
    unfold Composer.trainShared trainLists
    cases h1 : args.extract with
    | error e => exact ⟨fun c' h => (by cases h), fun e' h => (by cases h; rfl)⟩
    | ok q =>
      obtain ⟨s1, s2⟩ := q
      simp only [ok_bind]
      cases h2 : validData data (some s1.row2id) (some s2.row2id) (some phrase.row2id) with
      | error e => exact ⟨fun c' h => (by cases h), fun e' h => (by cases h; rfl)⟩
      | ok q =>
        obtain ⟨l1, l2, l3⟩ := q
        obtain ⟨k1, k2⟩ := trainOnS_spec env c.model s1 s2 phrase l1 l2 l3
        simp only [ok_bind, pure_eq_ok]
        cases h3 : c.model.trainOn env s1 s2 phrase l1 l2 l3 with
        | error e =>
          have := k2 e h3
          rcases hS : c.model.trainOnS env s1 s2 phrase l1 l2 l3 with ⟨m, o⟩
          rw [hS] at this
          have ho : o = .error e := this
          subst ho
          exact ⟨fun c' h => (by cases h), fun e' h => (by cases h; rfl)⟩
        | ok m =>
          rw [k1 m h3]
          exact ⟨fun c' h => (by cases h; rfl), fun e' h => (by cases h)⟩
  · rw [if_neg ht, if_neg ht]
    exact ⟨fun c' h => (by cases h), fun e' h => (by cases h; rfl)⟩

theorem learned_train (env : Env) (le : κ → κ → Bool) (m : LexFun κ) (data : List (Triple κ)) (arg phrase : Space κ) :
    m.train env le data arg phrase = m.learned env le data arg phrase >>= fun q =>
      Space.new q.1 q.2.1 [] none none [] (some q.2.2) >>= fun fs =>
        .ok ⟨m.learner, phrase.id2col, some fs, m.learner.hasIntercept, m.minSamples⟩ := by
  unfold LexFun.train LexFun.learned
  simp only
  cases h1 : validData (data.mergeSort fun x y => le x.1 y.1) none (some arg.row2id) (some phrase.row2id) with
  | error e => rfl
  | ok q =>
    obtain ⟨fl, al, pl⟩ := q
    simp only [ok_bind]
    cases h2 : getPartitions fl m.minSamples with
    | error e => rfl
    | ok q =>
      obtain ⟨keys, ranges⟩ := q
      simp only [ok_bind]
      by_cases hk : keys = []
      · rw [if_pos hk, if_pos hk]; rfl
      · rw [if_neg hk, if_neg hk]
        rcases arg.elemShape with _ | ⟨n, _ | ⟨n', t⟩⟩
        · rfl
        · simp only
          cases h3 : lexTrainLoop env m.learner arg phrase al pl
            (phrase.elemShape ++ [if m.learner.hasIntercept = true then n + 1 else n]).prod ranges with
          | error e => rfl
          | ok rs =>
            simp only [ok_bind]
            cases h4 : rs.getLast? with
            | none => rfl
            | some q =>
              obtain ⟨u, ty⟩ := q
              simp only
              cases h5 : TMat.naryVstack ty (rs.map Prod.fst) with
              | error e => rfl
              | ok mat => rfl
        · rfl

/-- The state-passing description of training has the outcomes and the results of `LexFun.train`. -/
theorem lexTrainS_spec (env : Env) (le : κ → κ → Bool) (m : LexFun κ) (data : List (Triple κ)) (arg phrase : Space κ) :
    (∀ m', m.train env le data arg phrase = .ok m' → m.trainS env le data arg phrase = (m', .ok ())) ∧
    ∀ e, m.train env le data arg phrase = .error e → (m.trainS env le data arg phrase).2 = .error e := by
  rw [learned_train]
  unfold LexFun.trainS
  cases h1 : m.learned env le data arg phrase with
  | error e => exact ⟨fun c' h => (by cases h), fun e' h => (by cases h; rfl)⟩
  | ok q =>
    obtain ⟨mat, keys, shape⟩ := q
    simp only [ok_bind]
    cases h2 : Space.new mat keys [] none none [] (some shape) with
    | error e => exact ⟨fun c' h => (by cases h), fun e' h => (by cases h; rfl)⟩
    | ok fs => exact ⟨fun c' h => (by cases h; rfl), fun e' h => (by cases h)⟩

/-! ### What holds -/

theorem assignLast_error {c : CModel} {x : Py CModel} {e : PyErr} (h : (assignLast c x).2 = .error e) :
    (assignLast c x).1 = c := by
  cases x with
  | error e => rfl
  | ok y => cases h

/-- **C135**, what holds for every numerical library: a training of `WeightedAdditive`, `Dilation` or `Multiplicative` that
raises, for whatever reason, leaves the model as it was. -/
theorem C135_train_partial (env : Env) (c : Composer κ) (hm : ∀ a b i l, c.model ≠ .fullAdditive a b i l)
    (data : List (Triple κ)) (args : ArgSpace κ) (phrase : Space κ) (e : PyErr)
    (h : (c.trainS env data args phrase).2 = .error e) : (c.trainS env data args phrase).1 = c := by
  unfold Composer.trainS at h ⊢
  split at h
  · rename_i ht
    rw [if_pos ht]
    split at h
    · rfl
    · rename_i s1 s2 l1 l2 l3 hl
      rcases hS : c.model.trainOnS env s1 s2 phrase l1 l2 l3 with ⟨m, o⟩
      rw [hS] at h
      cases o with
      | ok u => cases h
      | error e' =>
        simp only
        have : m = c.model := by
          cases hc : c.model with
          | multiplicative => rw [hc] at ht; cases ht
          | fullAdditive a b i l => exact absurd hc (hm a b i l)
          | weighted a b =>
            rw [hc] at hS
            have := assignLast_error (c := .weighted a b) (x := trainWeighted env s1 s2 phrase l1 l2 l3) (e := e') (by
              have := congrArg Prod.snd hS; exact this)
            rw [← this]
            exact (congrArg Prod.fst hS).symm
          | dilation x =>
            rw [hc] at hS
            have := assignLast_error (c := .dilation x)
              (x := sampleMats s1 s2 phrase l1 l2 l3 >>= fun m => trainDilation m.1 m.2.1 m.2.2) (e := e') (by
              have := congrArg Prod.snd hS; exact this)
            rw [← this]
            exact (congrArg Prod.fst hS).symm
        rw [this]
  · rename_i ht
    rw [if_neg ht]

/-- The model before any assignment: no usable training data. -/
theorem trainS_unusable (env : Env) (c : Composer κ) (data : List (Triple κ)) (args : ArgSpace κ) (phrase : Space κ)
    (e : PyErr) (h : trainLists data args phrase = .error e) : (c.trainS env data args phrase).1 = c := by
  unfold Composer.trainS
  rw [h]
  split <;> rfl

/-- **C135**, what holds for `FullAdditive`: with numerical libraries that do what they are meant to do, a training on
well-formed spaces that raises leaves the model as it was (it is unusable data that makes it raise). -/
theorem C135_full_additive_partial (env : Env) (henv : env.Ideal) (c : Composer κ) (at0 bt0 : Option (TMat ℝ)) (i0 : Bool)
    (l : Learner) (hl : l.Built) (hc : c.model = .fullAdditive at0 bt0 i0 (some l)) (data : List (Triple κ))
    (args : ArgSpace κ) (p : Space κ) (hp : p.WF) (n3 : 0 < p.mat.nc)
    (hargs : ∀ s1 s2, args.extract = .ok (s1, s2) → s1.WF ∧ s2.WF ∧ 0 < s1.mat.nc ∧ 0 < s2.mat.nc) (e : PyErr)
    (h : (c.trainS env data args p).2 = .error e) : (c.trainS env data args p).1 = c := by
  have hno : ∀ c', c.train env data args p ≠ .ok c' := by
    intro c' hc'
    rw [(trainS_spec env c data args p).1 c' hc'] at h
    cases h
  cases hx : args.extract with
  | error e' =>
    refine trainS_unusable env c data args p e' ?_
    unfold trainLists
    rw [hx]
    rfl
  | ok q =>
    obtain ⟨s1, s2⟩ := q
    obtain ⟨h1, h2, n1, n2⟩ := hargs s1 s2 hx
    by_cases hv : trainTriples s1 s2 p data = []
    · have : ∃ e', trainLists data args p = .error e' := by
        unfold trainLists
        rw [hx, ok_bind]
        simp only
        rw [validData_eq (some s1.row2id) (some s2.row2id) (some p.row2id) data (trainTriples s1 s2 p data) (by
          unfold trainTriples
          refine List.filter_congr fun t _ => ?_
          simp [knownIn, h1.rows.contains, h2.rows.contains, hp.rows.contains, Bool.decide_and, Bool.and_assoc])]
        by_cases hd : data = []
        · rw [if_pos hd]; exact ⟨_, rfl⟩
        · rw [if_neg hd, if_pos hv]; exact ⟨_, rfl⟩
      obtain ⟨e', he⟩ := this
      exact trainS_unusable env c data args p e' he
    · obtain ⟨c', hc', _⟩ := C131_full_additive env henv c at0 bt0 i0 l hl hc data args s1 s2 p hx h1 h2 hp n1 n2 n3 hv
      exact absurd hc' (hno c')

/-- **C135**, what holds for `FullAdditive` with any numerical library: a training that raises keeps the matrix `B`, the
column labels and the learner, and also the matrix `A` if it is the regression that does not give a result; the
intercept flag is the old one or the one of the learner. -/
theorem C135_full_additive_any_partial (env : Env) (c : Composer κ) (at0 bt0 : Option (TMat ℝ)) (i0 : Bool) (l : Learner)
    (hc : c.model = .fullAdditive at0 bt0 i0 (some l)) (data : List (Triple κ)) (args : ArgSpace κ) (p : Space κ) (e : PyErr)
    (h : (c.trainS env data args p).2 = .error e) :
    ∃ at1 i1, (c.trainS env data args p).1 = ⟨.fullAdditive at1 bt0 i1 (some l), c.columns⟩ ∧ (i1 = i0 ∨ i1 = l.hasIntercept) ∧
      ((∀ x y r, l.train env x y ≠ .ok r) → at1 = at0) := by
  obtain ⟨m, cols⟩ := c
  replace hc : m = .fullAdditive at0 bt0 i0 (some l) := hc
  subst hc
  have self : ∃ at1 i1, (⟨.fullAdditive at0 bt0 i0 (some l), cols⟩ : Composer κ) = ⟨.fullAdditive at1 bt0 i1 (some l), cols⟩ ∧
      (i1 = i0 ∨ i1 = l.hasIntercept) ∧ ((∀ x y r, l.train env x y ≠ .ok r) → at1 = at0) :=
    ⟨at0, i0, rfl, Or.inl rfl, fun _ => rfl⟩
  have full : ∀ m1 m2 p' : TMat ℝ, ∀ e', (trainFullS env at0 bt0 i0 (some l) m1 m2 p').2 = .error e' →
      ∃ at1 i1, (trainFullS env at0 bt0 i0 (some l) m1 m2 p').1 = .fullAdditive at1 bt0 i1 (some l) ∧
        (i1 = i0 ∨ i1 = l.hasIntercept) ∧ ((∀ x y r, l.train env x y ≠ .ok r) → at1 = at0) := by
    intro m1 m2 p' e' he
    unfold trainFullS at he ⊢
    simp only at he ⊢
    cases hr : (m1.hstack m2 >>= fun h => l.train env h p') with
    | error e2 =>
      rw [hr] at he
      exact ⟨at0, l.hasIntercept, rfl, Or.inr rfl, fun _ => rfl⟩
    | ok r =>
      have hok : ∃ x y r, l.train env x y = .ok r := by
        obtain ⟨x, -, hx⟩ := bind_eq_ok.1 hr
        exact ⟨x, p', r, hx⟩
      rw [hr] at he
      simp only at he ⊢
      cases hx : TMat.wrap r.ty (r.val.selRows ((List.range r.nr).take m1.nc)) with
      | error e2 =>
        rw [hx] at he
        exact ⟨at0, l.hasIntercept, rfl, Or.inr rfl, fun _ => rfl⟩
      | ok x =>
        rw [hx] at he
        simp only at he ⊢
        cases hy : TMat.wrap r.ty (r.val.selRows ((List.range r.nr).drop m1.nc)) with
        | error e2 =>
          rw [hy] at he
          refine ⟨some x, l.hasIntercept, rfl, Or.inr rfl, fun hno => ?_⟩
          obtain ⟨a, b, r', h'⟩ := hok
          exact absurd h' (hno a b r')
        | ok y =>
          rw [hy] at he
          cases he
  unfold Composer.trainS at h ⊢
  rw [if_pos (show (CModel.fullAdditive at0 bt0 i0 (some l)).trainable = true from rfl)] at h ⊢
  cases hx : trainLists data args p with
  | error e' =>
    rw [hx] at h
    exact self
  | ok q =>
    obtain ⟨s1, s2, l1, l2, l3⟩ := q
    rw [hx] at h
    simp only at h ⊢
    unfold CModel.trainOnS at h ⊢
    simp only at h ⊢
    cases hm : sampleMats s1 s2 p l1 l2 l3 with
    | error e' =>
      rw [hm] at h
      exact self
    | ok m =>
      rw [hm] at h
      simp only at h ⊢
      have hf := full m.1 m.2.1 m.2.2
      revert h hf
      cases trainFullS env at0 bt0 i0 (some l) m.1 m.2.1 m.2.2 with
      | mk m' o =>
        cases o with
        | ok u => intro h; cases h
        | error e' =>
          intro h hf
          obtain ⟨a1, i1, h1, h2, h3⟩ := hf e' rfl
          refine ⟨a1, i1, ?_, h2, h3⟩
          simp only at h1 ⊢
          rw [h1]

/-- **C135**, what holds for `compose` of these four classes: it never changes the parameters of the model; a call that
raises before a matrix is composed changes nothing at all. -/
theorem C135_compose_partial (c : Composer κ) (data : List (Triple κ)) (args : ArgSpace κ) :
    (c.compose data args).1.model = c.model ∧
    (∀ e, c.model.composeData data args = .error e → c.compose data args = (c, .error e)) ∧
    (∀ cols, c.columns = some cols → (c.compose data args).1 = c) := by
  refine ⟨?_, fun e h => ?_, fun cols h => ?_⟩
  · unfold Composer.compose
    split <;> rfl
  · unfold Composer.compose
    rw [h]
  · unfold Composer.compose
    split
    · rfl
    · obtain ⟨m, cs⟩ := c
      have : cs = some cols := h
      subst this
      rfl

/-- The successful `train` calls of a session. -/
def Composer.trainings (env : Env) (c : Composer κ) : List (ModelCall κ) → List (ModelCall κ)
  | [] => []
  | .compose data args :: xs => Composer.trainings env (c.call env (.compose data args)).1 xs
  | .train data args phrase :: xs =>
    match (c.trainS env data args phrase).2 with
    | .ok _ => .train data args phrase :: Composer.trainings env (c.trainS env data args phrase).1 xs
    | .error _ => Composer.trainings env (c.trainS env data args phrase).1 xs

theorem trainS_columns (env : Env) (c : Composer κ) (cols : Option (List κ)) (data : List (Triple κ)) (args : ArgSpace κ)
    (phrase : Space κ) :
    ((⟨c.model, cols⟩ : Composer κ).trainS env data args phrase).1.model = (c.trainS env data args phrase).1.model ∧
    ((⟨c.model, cols⟩ : Composer κ).trainS env data args phrase).2 = (c.trainS env data args phrase).2 := by
  unfold Composer.trainS
  simp only
  split
  · split
    · exact ⟨rfl, rfl⟩
    · split
      · exact ⟨rfl, rfl⟩
      · exact ⟨rfl, rfl⟩
  · exact ⟨rfl, rfl⟩

theorem trainS_not_full (env : Env) (c : Composer κ) (hm : ∀ a b i l, c.model ≠ .fullAdditive a b i l)
    (data : List (Triple κ)) (args : ArgSpace κ) (phrase : Space κ) :
    ∀ a b i l, (c.trainS env data args phrase).1.model ≠ .fullAdditive a b i l := by
  intro a b i l h
  rcases hS : c.trainS env data args phrase with ⟨c', o⟩
  rw [hS] at h
  cases o with
  | error e =>
    have := C135_train_partial env c hm data args phrase e (by rw [hS])
    rw [hS] at this
    have hcc : c' = c := this
    subst hcc
    exact hm a b i l h
  | ok u =>
    have ht : c.train env data args phrase = .ok c' := by
      cases hc : c.train env data args phrase with
      | error e =>
        have := (trainS_spec env c data args phrase).2 e hc
        rw [hS] at this
        cases this
      | ok c'' =>
        have := (trainS_spec env c data args phrase).1 c'' hc
        rw [hS] at this
        injection this with h1 _
        rw [h1]
    obtain ⟨htr, ht⟩ := Composer.train_inv ht
    unfold Composer.trainShared at ht
    obtain ⟨⟨s1, s2⟩, _, ht⟩ := bind_eq_ok.1 ht
    obtain ⟨⟨l1, l2, l3⟩, _, ht⟩ := bind_eq_ok.1 ht
    obtain ⟨m, hm', ht⟩ := bind_eq_ok.1 ht
    obtain rfl := ok_inj ht
    have h' : m = .fullAdditive a b i l := h
    subst h'
    cases hc : c.model with
    | multiplicative => rw [hc] at htr; cases htr
    | fullAdditive a b i l => exact hm a b i l hc
    | weighted x y =>
      rw [hc] at hm'
      simp only [CModel.trainOn, trainWeighted] at hm'
      obtain ⟨_, _, hm'⟩ := bind_eq_ok.1 hm'
      obtain ⟨⟨_, _⟩, _, hm'⟩ := bind_eq_ok.1 hm'
      cases hm'
    | dilation x =>
      rw [hc] at hm'
      simp only [CModel.trainOn] at hm'
      obtain ⟨⟨_, _, _⟩, _, hm'⟩ := bind_eq_ok.1 hm'
      simp only [trainDilation] at hm'
      obtain ⟨_, _, hm'⟩ := bind_eq_ok.1 hm'
      obtain ⟨_, _, hm'⟩ := bind_eq_ok.1 hm'
      obtain ⟨_, _, hm'⟩ := bind_eq_ok.1 hm'
      obtain ⟨_, _, hm'⟩ := bind_eq_ok.1 hm'
      split at hm' <;> cases hm'

/-- **C135**, what holds for every history: the parameters of a `WeightedAdditive`, `Dilation` or `Multiplicative` model
after any sequence of `train` and `compose` calls, some of which raise, are those after its successful trainings
alone. -/
theorem C135_history_partial (env : Env) (c : Composer κ) (hm : ∀ a b i l, c.model ≠ .fullAdditive a b i l)
    (calls : List (ModelCall κ)) :
    (c.session env calls).model = (c.session env (c.trainings env calls)).model := by
  suffices H : ∀ (calls : List (ModelCall κ)) (c d : Composer κ), (∀ a b i l, c.model ≠ .fullAdditive a b i l) →
      c.model = d.model → (c.session env calls).model = (d.session env (c.trainings env calls)).model from
    H calls c c hm rfl
  clear hm c calls
  intro calls
  induction calls with
  | nil => intro c d _ h; exact h
  | cons x xs ih =>
    intro c d hm hcd
    cases x with
    | compose data args =>
      have hmod : (c.call env (.compose data args)).1.model = c.model := (C135_compose_partial c data args).1
      rw [Composer.trainings]
      exact ih _ d (by rw [hmod]; exact hm) (hmod.trans hcd)
    | train data args phrase =>
      rcases hS : c.trainS env data args phrase with ⟨c', o⟩
      have hcall : c.call env (.train data args phrase) = (c', o) := hS
      have hc' : ∀ a b i l, c'.model ≠ .fullAdditive a b i l := by
        have := trainS_not_full env c hm data args phrase
        rw [hS] at this
        exact this
      have e1 : c.session env (.train data args phrase :: xs) = c'.session env xs := by
        rw [Composer.session, hcall]
      rw [e1]
      cases o with
      | error e =>
        have hcc := C135_train_partial env c hm data args phrase e (by rw [hS])
        rw [hS] at hcc
        have hcc : c' = c := hcc
        have hr : c.trainings env (.train data args phrase :: xs) = c'.trainings env xs := by
          rw [Composer.trainings, hS]
        rw [hr]
        exact ih c' d hc' (by rw [hcc]; exact hcd)
      | ok u =>
        have hr : c.trainings env (.train data args phrase :: xs) = .train data args phrase :: c'.trainings env xs := by
          rw [Composer.trainings, hS]
        rw [hr, Composer.session]
        refine ih c' _ hc' ?_
        have := (trainS_columns env c d.columns data args phrase).1
        rw [hS, hcd] at this
        exact this.symm

/-! ### Lexical functions -/

theorem lexTrainOne_shape {env : Env} {l : Learner} {arg phrase : Space κ} {al pl : List κ} {size : ℕ}
    {r : TMat ℝ × MTy} (h : lexTrainOne env l arg phrase al pl size = .ok r) : r.1.nr = 1 ∧ r.1.nc = size := by
  unfold lexTrainOne at h
  obtain ⟨am, _, h⟩ := bind_eq_ok.1 h
  obtain ⟨pm, _, h⟩ := bind_eq_ok.1 h
  obtain ⟨q, _, h⟩ := bind_eq_ok.1 h
  split at h
  · obtain ⟨x, _, h⟩ := bind_eq_ok.1 h
    obtain ⟨xt, _, h⟩ := bind_eq_ok.1 h
    obtain ⟨u, hu, h⟩ := bind_eq_ok.1 h
    obtain rfl := ok_inj h
    unfold TMat.reshape at hu
    split at hu
    · obtain rfl := ok_inj hu
      exact ⟨rfl, rfl⟩
    · cases hu
  · cases h

theorem lexTrainLoop_shape {env : Env} {l : Learner} {arg phrase : Space κ} {al pl : List κ} {size : ℕ} :
    ∀ (ranges : List (ℕ × ℕ)) (rs : List (TMat ℝ × MTy)), lexTrainLoop env l arg phrase al pl size ranges = .ok rs →
      rs.length = ranges.length ∧ ∀ r ∈ rs, r.1.nr = 1 ∧ r.1.nc = size
  | [], rs, h => by
    obtain rfl := ok_inj h
    exact ⟨rfl, fun r hr => (by cases hr)⟩
  | (b, e) :: ranges, rs, h => by
    unfold lexTrainLoop at h
    obtain ⟨r, hr, h⟩ := bind_eq_ok.1 h
    obtain ⟨rest, hrest, h⟩ := bind_eq_ok.1 h
    obtain rfl := ok_inj h
    obtain ⟨i1, i2⟩ := lexTrainLoop_shape ranges rest hrest
    refine ⟨by simp [i1], fun q hq => ?_⟩
    rcases List.mem_cons.1 hq with rfl | hq
    · exact lexTrainOne_shape hr
    · exact i2 q hq

theorem naryVstack_shape {ty : MTy} {w : ℕ} {l : List (TMat ℝ)} {M : TMat ℝ} (h : TMat.naryVstack ty l = .ok M)
    (hl : ∀ u ∈ l, u.nr = 1 ∧ u.nc = w) : M.nr = l.length ∧ M.nc = w := by
  cases l with
  | nil => cases h
  | cons t ts =>
    simp only [TMat.naryVstack] at h
    split at h
    · split at h
      · obtain ⟨rfl, _⟩ := TMat.wrap_eq_ok h
        obtain ⟨h1, h2⟩ := hl t (by simp)
        have h1' : t.val.nr = 1 := h1
        obtain ⟨i1, i2, -, -⟩ := foldl_vstack w ts t.val h2 (fun u hu => (hl u (by simp [hu])).symm)
        refine ⟨?_, i2⟩
        show (ts.foldl (fun acc u => acc.vstack u.val) t.val).nr = (t :: ts).length
        rw [i1, h1', List.length_cons]
        omega
      · cases h
    · cases h

/-- After the regressions have succeeded, building the function space cannot fail. -/
theorem learned_space {env : Env} {le : κ → κ → Bool} (htrans : ∀ a b c, le a b = true → le b c = true → le a c = true)
    (htotal : ∀ a b, (le a b || le b a) = true) (hanti : ∀ a b, le a b = true → le b a = true → a = b)
    {m : LexFun κ} (hms : 1 ≤ m.minSamples) {data : List (Triple κ)} {arg phrase : Space κ} {mat : TMat ℝ}
    {keys : List κ} {shape : List ℕ} (h : m.learned env le data arg phrase = .ok (mat, keys, shape)) :
    ∃ fs, Space.new mat keys [] none none [] (some shape) = .ok fs := by
  set v := (data.mergeSort (fun x y => le x.1 y.1)).filter (fun t =>
      knownIn none t.1 && knownIn (some arg.row2id) t.2.1 && knownIn (some phrase.row2id) t.2.2) with hv
  have hsort : (v.map (·.1)).Pairwise (fun a b => le a b = true) := by
    rw [List.pairwise_map]
    exact (List.pairwise_mergeSort (le := fun x y : Triple κ => le x.1 y.1) (fun a b c => htrans _ _ _)
      (fun a b => htotal _ _) data).filter _
  obtain ⟨ks, ranges, g1, g2, g3, -, -, -⟩ := partitions_sorted hanti v hsort m.minSamples hms
  unfold LexFun.learned at h
  simp only at h
  obtain ⟨⟨fl, al, pl⟩, h1, h⟩ := bind_eq_ok.1 h
  rw [validData_eq none (some arg.row2id) (some phrase.row2id) _ v hv] at h1
  split at h1
  · cases h1
  split at h1
  · cases h1
  injection (ok_inj h1) with e1 e2
  subst e1
  obtain ⟨⟨ks', ranges'⟩, h2, h⟩ := bind_eq_ok.1 h
  rw [g1] at h2
  injection (ok_inj h2) with e1 e2
  subst e1; subst e2
  split at h
  · cases h
  · split at h
    · obtain ⟨rs, h3, h⟩ := bind_eq_ok.1 h
      split at h
      · cases h
      · obtain ⟨mat', h4, h⟩ := bind_eq_ok.1 h
        injection (ok_inj h) with e1 e2
        injection e2 with e2 e3
        subst e1; subst e2; subst e3
        obtain ⟨i1, i2⟩ := lexTrainLoop_shape _ _ h3
        obtain ⟨j1, j2⟩ := naryVstack_shape h4 (by
          intro u hu
          obtain ⟨r, hr, rfl⟩ := List.mem_map.1 hu
          exact i2 r hr)
        obtain ⟨rd, hr⟩ := Space.resolveMap_none g3
        obtain ⟨cd, hc⟩ := Space.resolveMap_none (l := ([] : List κ)) List.nodup_nil
        exact ⟨_, Space.new_ok (ops := []) hr hc (by rw [j1, List.length_map, i1, g2]) (by simp)
          (by intro s hs; injection hs with hs; subst hs; exact j2.symm)⟩
    · cases h

/-- **C135**, what holds for `LexicalFunction`: a training that raises, for whatever reason and with whatever numerical
library, leaves the learned functions, the learner, the threshold and the column labels as they were; only the intercept
flag may change, to that of the learner. So the model is unchanged if it was trained by its learner before (or its flag
agrees with the learner's). -/
theorem C135_lexical_partial (env : Env) (le : κ → κ → Bool)
    (htrans : ∀ a b c, le a b = true → le b c = true → le a c = true)
    (htotal : ∀ a b, (le a b || le b a) = true) (hanti : ∀ a b, le a b = true → le b a = true → a = b)
    (m : LexFun κ) (hms : 1 ≤ m.minSamples) (data : List (Triple κ)) (arg phrase : Space κ) (e : PyErr)
    (h : (m.trainS env le data arg phrase).2 = .error e) :
    (m.trainS env le data arg phrase).1 = { m with intercept := m.learner.hasIntercept } ∧
    (m.intercept = m.learner.hasIntercept → (m.trainS env le data arg phrase).1 = m) := by
  have key : (m.trainS env le data arg phrase).1 = { m with intercept := m.learner.hasIntercept } := by
    unfold LexFun.trainS at h ⊢
    cases h1 : m.learned env le data arg phrase with
    | error e => rfl
    | ok q =>
      obtain ⟨mat, keys, shape⟩ := q
      obtain ⟨fs, hfs⟩ := learned_space htrans htotal hanti hms h1
      rw [h1] at h
      simp only at h
      rw [hfs] at h
      cases h
  refine ⟨key, fun hi => ?_⟩
  rw [key, ← hi]

/-- A trained model has the flag of its learner, so later trainings that raise leave it as it was. -/
theorem C135_lexical_trained_partial (env env' : Env) (le : κ → κ → Bool)
    (htrans : ∀ a b c, le a b = true → le b c = true → le a c = true)
    (htotal : ∀ a b, (le a b || le b a) = true) (hanti : ∀ a b, le a b = true → le b a = true → a = b)
    (m m' : LexFun κ) (hms : 1 ≤ m.minSamples) (data data' : List (Triple κ)) (arg phrase arg' phrase' : Space κ)
    (htr : m.train env le data arg phrase = .ok m') (e : PyErr)
    (h : (m'.trainS env' le data' arg' phrase').2 = .error e) : (m'.trainS env' le data' arg' phrase').1 = m' := by
  rw [learned_train] at htr
  obtain ⟨q, _, htr⟩ := bind_eq_ok.1 htr
  obtain ⟨fs, _, htr⟩ := bind_eq_ok.1 htr
  obtain rfl := ok_inj htr
  exact (C135_lexical_partial env' le htrans htotal hanti ⟨m.learner, phrase.id2col, some fs, m.learner.hasIntercept,
    m.minSamples⟩ hms data' arg' phrase' e h).2 rfl

theorem lexCompose_flag {i : Bool} {f arg r r' : TMat ℝ} {shape : List ℕ} (h : lexCompose i f arg shape = .ok r)
    (h' : lexCompose (!i) f arg shape = .ok r') : False := by
  have inv : ∀ (i : Bool) (r : TMat ℝ), lexCompose i f arg shape = .ok r →
      ∃ n, shape.getLast? = some n ∧ n = arg.nc + if i then 1 else 0 := by
    intro i r h
    unfold lexCompose at h
    split at h
    · cases h
    · split at h <;> cases h
    · rename_i n _ _ hn _
      refine ⟨n, hn, ?_⟩
      obtain ⟨f', hf, h⟩ := bind_eq_ok.1 h
      obtain ⟨t, ht, h⟩ := bind_eq_ok.1 h
      obtain ⟨t', ht', x, hx⟩ : ∃ t', (if i then t.padd 0 1 else .ok t) = .ok t' ∧ ∃ x, f'.mul t' = .ok x := by
        cases i with
        | false =>
          obtain ⟨t', ht', h⟩ := bind_eq_ok.1 h
          obtain ⟨x, hx, -⟩ := bind_eq_ok.1 h
          exact ⟨t', ht', x, hx⟩
        | true =>
          obtain ⟨t', ht', h⟩ := bind_eq_ok.1 h
          obtain ⟨x, hx, -⟩ := bind_eq_ok.1 h
          exact ⟨t', ht', x, hx⟩
      have e1 : f'.nc = n := by
        unfold TMat.reshape at hf
        split at hf
        · obtain rfl := ok_inj hf; rfl
        · cases hf
      have e2 : t.nr = arg.nc := by
        obtain ⟨rfl, _⟩ := TMat.wrap_eq_ok (show TMat.wrap arg.ty arg.val.transpose = .ok t from ht)
        rfl
      have e3 : t'.nr = t.nr + if i then 1 else 0 := by
        cases i with
        | false => obtain rfl := ok_inj ht'; rfl
        | true =>
          simp only [if_true, TMat.padd] at ht'
          split at ht'
          · cases ht'
          · rename_i a ha
            have ea : a.nr = 1 := by
              unfold TMat.ofNumpy at ha
              split at ha
              · cases ha
              · obtain rfl := ok_inj ha; rfl
            unfold TMat.vstack at ht'
            split at ht'
            · split at ht'
              · obtain ⟨rfl, _⟩ := TMat.wrap_eq_ok ht'
                show t.nr + a.nr = _
                rw [ea, if_pos rfl]
              · cases ht'
            · cases ht'
      unfold TMat.mul at hx
      split at hx
      · split at hx
        · rename_i hm
          rw [← e1, hm, e3, e2]
        · cases hx
      · cases hx
  obtain ⟨n, e1, e2⟩ := inv i r h
  obtain ⟨n', e1', e2'⟩ := inv (!i) r' h'
  rw [e1] at e1'
  injection e1' with e
  subst e
  cases i <;> simp at e2 e2' <;> omega

/-- **C135** is false of `LexicalFunction`: when a model made from a function space has another intercept flag than its
learner, any training that raises disables it: whatever it could compose before, it cannot compose afterwards. -/
theorem C135_lexical_refuted (env : Env) (le : κ → κ → Bool)
    (htrans : ∀ a b c, le a b = true → le b c = true → le a c = true)
    (htotal : ∀ a b, (le a b || le b a) = true) (hanti : ∀ a b, le a b = true → le b a = true → a = b)
    (m : LexFun κ) (hms : 1 ≤ m.minSamples) (hi : m.intercept ≠ m.learner.hasIntercept) (data : List (Triple κ))
    (arg phrase : Space κ) (e : PyErr) (h : (m.trainS env le data arg phrase).2 = .error e)
    (test : List (Triple κ)) (s r : Space κ) (hr : m.compose test s = .ok r) :
    ∀ r', (m.trainS env le data arg phrase).1.compose test s ≠ .ok r' := by
  intro r' hr'
  rw [(C135_lexical_partial env le htrans htotal hanti m hms data arg phrase e h).1,
    show m.learner.hasIntercept = !m.intercept by cases h1 : m.intercept <;> cases h2 : m.learner.hasIntercept <;> simp_all]
    at hr'
  unfold LexFun.compose at hr hr'
  simp only at hr'
  cases hf : m.functions with
  | none => rw [hf] at hr; cases hr
  | some fs =>
    rw [hf] at hr hr'
    simp only at hr hr'
    obtain ⟨⟨l1, l2, l3⟩, hv, hr⟩ := bind_eq_ok.1 hr
    obtain ⟨q, hv', hr'⟩ := bind_eq_ok.1 hr'
    rw [hv] at hv'
    obtain rfl := ok_inj hv'
    simp only at hr hr'
    obtain ⟨vs, h1, -⟩ := bind_eq_ok.1 hr
    obtain ⟨vs', h1', -⟩ := bind_eq_ok.1 hr'
    rw [validData_eq _ _ _ test _ rfl] at hv
    split at hv
    · cases hv
    split at hv
    · cases hv
    rename_i hne
    injection (ok_inj hv) with e1 e2
    injection e2 with e2 e3
    subst e1; subst e2
    obtain ⟨t, ts, hts⟩ := List.exists_cons_of_ne_nil hne
    rw [hts] at h1 h1'
    simp only [List.map_cons, lexLoop] at h1 h1'
    obtain ⟨a, ha, -⟩ := bind_eq_ok.1 h1
    obtain ⟨a', ha', -⟩ := bind_eq_ok.1 h1'
    unfold lexOne at ha ha'
    obtain ⟨v1, k1, ha⟩ := bind_eq_ok.1 ha
    obtain ⟨w1, k1', ha'⟩ := bind_eq_ok.1 ha'
    rw [k1] at k1'; obtain rfl := ok_inj k1'
    obtain ⟨v2, k2, ha⟩ := bind_eq_ok.1 ha
    obtain ⟨w2, k2', ha'⟩ := bind_eq_ok.1 ha'
    rw [k2] at k2'; obtain rfl := ok_inj k2'
    obtain ⟨x, k3, ha⟩ := bind_eq_ok.1 ha
    obtain ⟨x', k3', ha'⟩ := bind_eq_ok.1 ha'
    rw [k3] at k3'; obtain rfl := ok_inj k3'
    split at ha
    · exact lexCompose_flag ha ha'
    · cases ha

/-- **C135** is false of `compose`: a call that raises after the matrix has been composed (two phrases with the same
label) stores the column labels of its argument space; a later call labels the columns of its result with these, and not
with those of its own argument space. -/
theorem C135_columns_refuted (c : Composer κ) (hc : c.columns = none) (hm : ∀ A B i l, c.model ≠ .fullAdditive A B i l)
    (d1 d2 : List (Triple κ)) (s t r1 r2 : Space κ) (hne : s.id2col ≠ t.id2col) (q : Space κ × List κ × TMat ℝ)
    (h0 : c.model.composeData d1 (.one s) = .ok q) (e : PyErr) (h0' : (c.compose d1 (.one s)).2 = .error e)
    (h1 : (c.compose d2 (.one t)).2 = .ok r1)
    (h2 : ((c.compose d1 (.one s)).1.compose d2 (.one t)).2 = .ok r2) :
    r1.id2col = t.id2col ∧ r2.id2col = s.id2col ∧ r1 ≠ r2 := by
  have e1 := (C38_columns c d2 (.one t) t t r1 ((extract_iff _ _ _).2 (Or.inl ⟨rfl, rfl⟩)) h1).2.1 hc hm
  have ex := (extract_iff (.one s) s s).2 (Or.inl ⟨rfl, rfl⟩)
  have hst : (c.compose d1 (.one s)).1.columns = some s.id2col := by
    unfold Composer.compose
    rw [h0]
    obtain ⟨t', l, m⟩ := q
    obtain rfl := composeData_space ex h0
    simp only [hc, Option.getD_none]
    unfold CModel.buildColumns
    split
    · rename_i heq; exact absurd heq (hm _ _ _ _)
    · rfl
  have e2 := (C38_columns (c.compose d1 (.one s)).1 d2 (.one t) t t r2
    ((extract_iff _ _ _).2 (Or.inl ⟨rfl, rfl⟩)) h2).1 s.id2col hst
  refine ⟨e1, e2, ?_⟩
  rintro rfl
  exact hne (e2.symm.trans e1)

/-- **C38** two usable phrases with the same label: `compose` raises `ValueError`, after storing the column labels. -/
theorem C38_duplicate_phrases (c : Composer κ) (data : List (Triple κ)) (args : ArgSpace κ) (s1 s2 : Space κ) (w : ℕ)
    (hx : args.extract = .ok (s1, s2)) (h1 : s1.WF) (h2 : s2.WF) (hf : c.model.Fits s1.mat.nc s2.mat.nc w)
    (hn : ¬ ((knownTriples s1 s2 data).map (·.2.2)).Nodup) :
    (∃ q, c.model.composeData data args = .ok q) ∧ (c.compose data args).2 = .error .valueError := by
  have hv : knownTriples s1 s2 data ≠ [] := by
    intro h
    rw [h] at hn
    exact hn List.nodup_nil
  obtain ⟨ty, A, B, a1, b1, a2, b2, ga, gb, he⟩ := composeData_inputs c.model data hx h1 h2 hf.1 hf.2.1 hv
  have hpos : 0 < A.nr := by rw [a1]; exact List.length_pos_iff.2 hv
  obtain ⟨M, hM, -, -, -⟩ := compose2_ok c.model (ty := ty) (A := A) (B := B) (w := w) (a1.trans b1.symm) hpos
    (by rw [a2, b2]; exact hf)
  rw [hM, ok_bind] at he
  refine ⟨⟨_, he⟩, ?_⟩
  unfold Composer.compose
  rw [he]
  simp only
  unfold Space.new
  cases hr : Space.resolveMap ((knownTriples s1 s2 data).map (·.2.2)) none with
  | ok r => exact absurd (Space.resolveMap_eq_ok hr).1.nodup hn
  | error e =>
    rcases Space.resolveMap_error hr with rfl | ⟨_, _, _, _, h, _⟩
    · rfl
    · cases h

/-! ### Concrete cases -/

/-- A sample with an unknown word: nothing to train on. -/
theorem ex_unusable {s : Space String} (wf : s.WF) (hr : s.id2row = ["red", "car"]) :
    trainLists [("red", "horse", "car")] (.one s) s = .error .valueError := by
  unfold trainLists
  rw [(extract_iff (.one s) s s).2 (Or.inl ⟨rfl, rfl⟩), ok_bind]
  simp only
  rw [validData_eq (some s.row2id) (some s.row2id) (some s.row2id) _ [] (by
    simp [knownIn, wf.rows.contains, hr]), if_neg (by simp), if_pos rfl]
  rfl

theorem trainS_unusable_error {env : Env} {c : Composer κ} {data : List (Triple κ)} {args : ArgSpace κ} {phrase : Space κ}
    {e : PyErr} (hc : c.model.trainable = true) (h : trainLists data args phrase = .error e) :
    (c.trainS env data args phrase).2 = .error e := by
  unfold Composer.trainS
  rw [if_pos hc, h]

/-- non-vacuity of C135_train, C135_full_additive, C135_compose and C135_history: a `WeightedAdditive` and a
`FullAdditive` model, trained on data without a usable sample. -/
example : ∃ (s : Space String) (env : Env), env.Ideal ∧
    ((⟨.weighted (1 / 2) (1 / 2), none⟩ : Composer String).trainS env [("red", "horse", "car")] (.one s) s =
      (⟨.weighted (1 / 2) (1 / 2), none⟩, .error .valueError)) ∧
    ((newFullAdditiveLearner (.lstsq false) : Composer String).trainS env [("red", "horse", "car")] (.one s) s =
      (newFullAdditiveLearner (.lstsq false), .error .valueError)) ∧
    ((⟨.weighted (1 / 2) (1 / 2), none⟩ : Composer String).session env
      [.train [("red", "horse", "car")] (.one s) s, .compose [("red", "car", "red_car")] (.one s)]).model =
        .weighted (1 / 2) (1 / 2) := by
  obtain ⟨s, _, wf, n, q, c⟩ := exArg_ok .dense ["f1", "f2"] (by decide) rfl
  have hu := ex_unusable wf q
  have hw : ∀ a b i l, (⟨.weighted (1 / 2) (1 / 2), none⟩ : Composer String).model ≠ .fullAdditive a b i l := by
    intro a b i l h; cases h
  have e1 := trainS_unusable_error (env := idealEnv) (c := (⟨.weighted (1 / 2) (1 / 2), none⟩ : Composer String)) rfl hu
  have e2 := trainS_unusable_error (env := idealEnv) (c := (newFullAdditiveLearner (.lstsq false) : Composer String)) rfl hu
  refine ⟨s, idealEnv, idealEnv_ideal, Prod.ext ?_ e1, Prod.ext ?_ e2, ?_⟩
  · exact C135_train_partial idealEnv _ hw _ _ _ _ e1
  · refine C135_full_additive_partial idealEnv idealEnv_ideal _ none none false (.lstsq false) (Or.inl ⟨_, rfl⟩) rfl _ _ s wf
      (by omega) ?_ _ e2
    intro s1 s2 h
    rw [(extract_iff (.one s) s s).2 (Or.inl ⟨rfl, rfl⟩)] at h
    injection (ok_inj h) with h1 h2
    subst h1; subst h2
    exact ⟨wf, wf, by omega, by omega⟩
  · rw [C135_history_partial idealEnv _ hw]
    simp only [Composer.trainings]
    rw [e1]
    rfl

/-- non-vacuity of C135_full_additive_any: a numerical library whose `pinv` always raises; the matrices of an earlier
training are kept, whatever the data. -/
example (x y : TMat ℝ) (cols : List String) (data : List (Triple String)) (args : ArgSpace String) (p : Space String) :
    ∃ i, ((⟨.fullAdditive (some x) (some y) true (some (.ridge false false [] (some 1))), some cols⟩ : Composer String).trainS
      { idealEnv with npPinv := fun _ => .error .runtimeError } data args p).1 =
      ⟨.fullAdditive (some x) (some y) i (some (.ridge false false [] (some 1))), some cols⟩ := by
  have hno : ∀ a b r, (Learner.ridge false false [] (some 1)).train { idealEnv with npPinv := fun _ => .error .runtimeError } a b ≠
      .ok r := by
    intro a b r h
    obtain ⟨q, h, -⟩ := bind_eq_ok.1 (show (ridgeRegression _ a b 1 false >>= fun r => pure r.1) = .ok r from h)
    obtain ⟨_, -, h⟩ := bind_eq_ok.1 h
    obtain ⟨_, -, h⟩ := bind_eq_ok.1 h
    obtain ⟨_, -, h⟩ := bind_eq_ok.1 h
    obtain ⟨_, -, h⟩ := bind_eq_ok.1 h
    obtain ⟨_, -, h⟩ := bind_eq_ok.1 h
    obtain ⟨_, -, h⟩ := bind_eq_ok.1 h
    obtain ⟨_, -, h⟩ := bind_eq_ok.1 h
    obtain ⟨_, h, -⟩ := bind_eq_ok.1 h
    cases h
  have hf : ∃ e, ((⟨.fullAdditive (some x) (some y) true (some (.ridge false false [] (some 1))), some cols⟩ :
      Composer String).trainS { idealEnv with npPinv := fun _ => .error .runtimeError } data args p).2 = .error e := by
    unfold Composer.trainS
    rw [if_pos (show (CModel.fullAdditive (some x) (some y) true (some (.ridge false false [] (some 1)))).trainable = true from rfl)]
    cases trainLists data args p with
    | error e => exact ⟨e, rfl⟩
    | ok q =>
      obtain ⟨s1, s2, l1, l2, l3⟩ := q
      simp only
      unfold CModel.trainOnS
      simp only
      cases sampleMats s1 s2 p l1 l2 l3 with
      | error e => exact ⟨e, rfl⟩
      | ok m =>
        simp only
        unfold trainFullS
        simp only
        cases hr : (m.1.hstack m.2.1 >>= fun h => (Learner.ridge false false [] (some 1)).train
            { idealEnv with npPinv := fun _ => .error .runtimeError } h m.2.2) with
        | error e => exact ⟨e, rfl⟩
        | ok r =>
          obtain ⟨_, -, h⟩ := bind_eq_ok.1 hr
          exact absurd h (hno _ _ _)
  obtain ⟨e, he⟩ := hf
  obtain ⟨a, i, h1, -, h3⟩ := C135_full_additive_any_partial _ _ (some x) (some y) true _ rfl data args p e he
  exact ⟨i, by rw [h1, h3 hno]⟩

/-- non-vacuity of C135_lexical_refuted and C135_lexical_partial: a model made from a function space without intercept; its
default learner has one. -/
example : ∃ (fs arg : Space ℕ) (r : Space ℕ),
    (LexFun.ofSpace fs false).compose [(7, 8, 1)] arg = .ok r ∧
    ((LexFun.ofSpace fs false).trainS onesEnv (fun a b => decide (a ≤ b)) [(7, 5, 8)] arg arg).2 = .error .valueError ∧
    ∀ r', ((LexFun.ofSpace fs false).trainS onesEnv (fun a b => decide (a ≤ b)) [(7, 5, 8)] arg arg).1.compose
      [(7, 8, 1)] arg ≠ .ok r' := by
  obtain ⟨fs, f1, f2, f3, f4, f5⟩ := exists_space (Mat.of 1 4 (fun _ j => (j : ℝ) + 1)) [7] (by simp) rfl (some [2, 2])
    (by rintro s ⟨⟩; rfl)
  obtain ⟨arg, a1, a2, a3, a4, a5⟩ := exists_space (Mat.of 2 2 (fun i j => (i : ℝ) - j)) [8, 9] (by simp) rfl none (by simp)
  have hnc : arg.mat.nc = 2 := by rw [a2]; rfl
  have hk : knownTriples fs arg [(7, 8, 1)] = [(7, 8, 1)] := by
    unfold knownTriples
    rw [f3, a3]
    rfl
  obtain ⟨r, hr, -⟩ := C45_compose (LexFun.ofSpace fs false) fs arg [(7, 8, 1)] [2] rfl f1 a1 (by simp) (by simp)
    (by omega) (by rw [f5, hnc]; rfl) (by simp [LexFun.ofSpace]) (by simp [LexFun.ofSpace]) (by rw [hk]; simp)
    (by rw [hk]; decide)
  have t1 : ∀ a b c : ℕ, decide (a ≤ b) = true → decide (b ≤ c) = true → decide (a ≤ c) = true := by
    intro a b c h1 h2; simp only [decide_eq_true_eq] at *; omega
  have t2 : ∀ a b : ℕ, (decide (a ≤ b) || decide (b ≤ a)) = true := by
    intro a b; simp only [Bool.or_eq_true, decide_eq_true_eq]; omega
  have t3 : ∀ a b : ℕ, decide (a ≤ b) = true → decide (b ≤ a) = true → a = b := by
    intro a b h1 h2; simp only [decide_eq_true_eq] at *; omega
  have hno : ∀ f, lexSamples arg arg [(7, 5, 8)] f = [] := by
    intro f
    unfold lexSamples
    rw [a3]
    simp
  have herr := (lexTrainS_spec onesEnv (fun a b => decide (a ≤ b)) (LexFun.ofSpace fs false) [(7, 5, 8)] arg arg).2 _
    (C46_no_function onesEnv (fun a b => decide (a ≤ b)) t1 t2 t3 (LexFun.ofSpace fs false) [(7, 5, 8)] arg arg a1 a1
      (by simp) (by simp [LexFun.ofSpace]) (by
        rintro ⟨f, hf⟩
        rw [hno] at hf
        simp [LexFun.ofSpace] at hf))
  exact ⟨fs, arg, r, hr, herr, C135_lexical_refuted onesEnv (fun a b => decide (a ≤ b)) t1 t2 t3 (LexFun.ofSpace fs false)
    (by simp [LexFun.ofSpace]) (by simp [LexFun.ofSpace, Learner.hasIntercept]) _ arg arg _ herr _ arg r hr⟩

/-- non-vacuity of C135_columns_refuted and C38_duplicate_phrases. -/
example : ∃ (s t r1 r2 : Space String),
    ((newMultiplicative : Composer String).compose [("red", "car", "x"), ("car", "red", "x")] (.one s)).2 = .error .valueError ∧
    ((newMultiplicative : Composer String).compose exData (.one t)).2 = .ok r1 ∧
    (((newMultiplicative : Composer String).compose [("red", "car", "x"), ("car", "red", "x")] (.one s)).1.compose exData
      (.one t)).2 = .ok r2 ∧ r1.id2col = ["g1", "g2"] ∧ r2.id2col = ["f1", "f2"] := by
  obtain ⟨s, _, w1, n1, q1, c1⟩ := exArg_ok .dense ["f1", "f2"] (by decide) rfl
  obtain ⟨t, _, w2, n2, q2, c2⟩ := exArg_ok .sparse ["g1", "g2"] (by decide) rfl
  have xs := (extract_iff (.one s) s s).2 (Or.inl ⟨rfl, rfl⟩)
  have xt := (extract_iff (.one t) t t).2 (Or.inl ⟨rfl, rfl⟩)
  have hk : knownTriples s s [("red", "car", "x"), ("car", "red", "x")] = [("red", "car", "x"), ("car", "red", "x")] := by
    unfold knownTriples
    rw [q1]
    rfl
  obtain ⟨⟨q, hq⟩, he⟩ := C38_duplicate_phrases (newMultiplicative : Composer String) _ (.one s) s s 2 xs w1 w1
    ⟨by omega, by omega, by omega, rfl, n1.symm⟩ (by rw [hk]; decide)
  have hmod : ((newMultiplicative : Composer String).compose [("red", "car", "x"), ("car", "red", "x")] (.one s)).1.model =
      .multiplicative := (C135_compose_partial _ _ _).1
  have hcols : ((newMultiplicative : Composer String).compose [("red", "car", "x"), ("car", "red", "x")] (.one s)).1.columns =
      some ["f1", "f2"] := by
    unfold Composer.compose
    obtain ⟨u, l, m⟩ := q
    obtain rfl := composeData_space xs hq
    rw [hq, ← c1]
    rfl
  obtain ⟨r1, h1, _⟩ := C38_compose (newMultiplicative : Composer String) exData (.one t) t t 2 xt w2 w2
    ⟨by omega, by omega, by omega, rfl, n2.symm⟩ (by intro _ h; cases h) (by rw [exData_known q2 q2]; simp)
    (by rw [exData_known q2 q2]; simp)
  obtain ⟨r2, h2, _⟩ := C38_compose
    ((newMultiplicative : Composer String).compose [("red", "car", "x"), ("car", "red", "x")] (.one s)).1 exData (.one t)
    t t 2 xt w2 w2 (by rw [hmod]; exact ⟨by omega, by omega, by omega, rfl, n2.symm⟩)
    (by
      intro cols hc
      rw [hcols] at hc
      injection hc with hc
      subst hc
      decide)
    (by rw [exData_known q2 q2]; simp) (by rw [exData_known q2 q2]; simp)
  obtain ⟨z1, z2, -⟩ := C135_columns_refuted (newMultiplicative : Composer String) rfl (by intro _ _ _ _ h; cases h) _ exData s t
    r1 r2 (by rw [c1, c2]; decide) q hq _ he h1 h2
  exact ⟨s, t, r1, r2, he, h1, h2, z1.trans c2, z2.trans c1⟩

/-- non-vacuity of C135_lexical_trained_partial: a training that succeeds, then one without a usable sample. -/
example : ∃ (s : Space ℕ) (m' : LexFun ℕ),
    (LexFun.ofLearner (.lstsq true)).train idealEnv (fun a b => decide (a ≤ b)) [(5, 0, 1), (5, 2, 3)] s s = .ok m' ∧
    m'.trainS idealEnv (fun a b => decide (a ≤ b)) [(5, 9, 1)] s s = (m', .error .valueError) := by
  obtain ⟨s, s1, s2, s3, s4, s5⟩ := exists_space (Mat.of 4 1 (fun _ _ => (1 : ℝ))) [0, 1, 2, 3] (by simp) rfl none (by simp)
  have hnc : s.mat.nc = 1 := by rw [s2]; rfl
  have t1 : ∀ a b c : ℕ, decide (a ≤ b) = true → decide (b ≤ c) = true → decide (a ≤ c) = true := by
    intro a b c h1 h2; simp only [decide_eq_true_eq] at *; omega
  have t2 : ∀ a b : ℕ, (decide (a ≤ b) || decide (b ≤ a)) = true := by
    intro a b; simp only [Bool.or_eq_true, decide_eq_true_eq]; omega
  have t3 : ∀ a b : ℕ, decide (a ≤ b) = true → decide (b ≤ a) = true → a = b := by
    intro a b h1 h2; simp only [decide_eq_true_eq] at *; omega
  have h5 : lexSamples s s [(5, 0, 1), (5, 2, 3)] 5 = [(5, 0, 1), (5, 2, 3)] := by
    unfold lexSamples; rw [s3]; rfl
  obtain ⟨m', hm'⟩ := (C131_lexical_iff idealEnv idealEnv_ideal (fun a b => decide (a ≤ b)) t1 t2 t3
    (LexFun.ofLearner (.lstsq true)) (Or.inl ⟨_, rfl⟩) [(5, 0, 1), (5, 2, 3)] s s s1 s1 (by simp) (by omega) (by omega)
    (by rw [s5, hnc]; rfl) (by simp [LexFun.ofLearner])).1.2 ⟨5, by rw [h5]; simp [LexFun.ofLearner]⟩
  have hno : ∀ f, lexSamples s s [(5, 9, 1)] f = [] := by
    intro f
    unfold lexSamples
    rw [s3]
    simp
  have hms : m'.minSamples = 1 := by
    have hm := hm'
    rw [learned_train] at hm
    obtain ⟨q, _, hm⟩ := bind_eq_ok.1 hm
    obtain ⟨fs, _, hm⟩ := bind_eq_ok.1 hm
    obtain rfl := ok_inj hm
    rfl
  have herr := (lexTrainS_spec idealEnv (fun a b => decide (a ≤ b)) m' [(5, 9, 1)] s s).2 _
    (C46_no_function idealEnv (fun a b => decide (a ≤ b)) t1 t2 t3 m' [(5, 9, 1)] s s s1 s1
      (by simp) (by rw [hms]) (by
        rintro ⟨f, hf⟩
        rw [hno, hms] at hf
        simp at hf))
  exact ⟨s, m', hm', Prod.ext (C135_lexical_trained_partial idealEnv idealEnv (fun a b => decide (a ≤ b)) t1 t2 t3 _ m'
    (by simp [LexFun.ofLearner]) _ _ s s s s hm' _ herr) herr⟩

end
end Dissect
