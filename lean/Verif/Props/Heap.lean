import Verif.Lemmas.HeapStep

/-! # C93 – C95: matrices that are changed in place -/

namespace Dissect
noncomputable section
open Heap HM

/-! ## C93: nothing but the in-place methods changes an existing matrix -/

/-- Whatever a program has done before, a call that is not one of `plog`, `to_non_negative`, `to_ones`, `reshape` leaves
every existing matrix and array as it was; also when it raises an exception, and also the calls that use the in-place
methods internally (ppmi, plmi, plog weighting, projection of nmf, Lin similarity, lexical function composition). -/
theorem C93_unchanged {env : Env} {s : Session} (hr : Reachable env s) (c : HCall) (hc : c.isInPlace = false) {i : ℕ}
    (hi : i < s.heap.objs.length) : (s.step env c).heap.view i = s.heap.view i := by
  rw [session_heap]
  exact (step_frame env (reachable_wf hr) c hc).2.same (reachable_wf hr) hi

/-- The same for any number of such calls. -/
theorem C93_history {env : Env} {s : Session} (hr : Reachable env s) (cs : List HCall)
    (hc : ∀ c ∈ cs, c.isInPlace = false) {i : ℕ} (hi : i < s.heap.objs.length) :
    (s.heap.run env cs).view i = s.heap.view i := by
  have key : ∀ (cs : List HCall) (h : Heap), h.WF → i < h.objs.length → (∀ c ∈ cs, c.isInPlace = false) →
      (h.run env cs).view i = h.view i := by
    intro cs
    induction cs with
    | nil => intros; rfl
    | cons c cs ih =>
      intro h hw hi hc
      obtain ⟨hw', he⟩ := step_frame env hw c (hc c (by simp))
      show (Heap.run env (c.step env h).1 cs).view i = _
      rw [ih _ hw' (lt_of_lt_of_le hi he.objs_lt) (fun c' h' => hc c' (List.mem_cons_of_mem _ h'))]
      exact he.same hw hi
  exact key cs s.heap (reachable_wf hr) hi hc

theorem computes_of {p : HM ℕ} {h : Heap} {v : Py (TMat ℝ)} {R : Heap → ℕ → TMat ℝ → Prop} (hd : Does h h p v R)
    (hR : ∀ h' k r, R h' k r → h'.matrix k = some r) : Computes p h v := by
  unfold Does at hd
  unfold Computes
  cases v with
  | error e => obtain ⟨h', hp, _⟩ := hd; exact ⟨h', hp⟩
  | ok r => obtain ⟨h', k, hp, _, _, hk⟩ := hd; exact ⟨h', k, hp, hR _ _ _ hk⟩

/-- The constructors: from a `Matrix` the converted matrix; from a numpy matrix (which must not be empty) or a `csr_matrix`
a matrix of the class with the values of the array. -/
theorem C93_constructor {env : Env} {s : Session} (hr : Reachable env s) (ty : MTy) {i : ℕ} {t : TMat ℝ}
    (hv : s.heap.view i = some t) :
    (s.heap.rawOf i = some false → Computes (HM.wrap ty i) s.heap (t.toType ty)) ∧
    (s.heap.rawOf i = some true → t.ty = .dense → Computes (HM.wrap ty i) s.heap (TMat.ofNumpy ty t.val)) ∧
    (s.heap.rawOf i = some true → t.ty = .sparse → Computes (HM.wrap ty i) s.heap (.ok ⟨ty, t.val⟩)) := by
  obtain ⟨o, b, ho, hb, ht⟩ := view_some hv
  have hro : s.heap.rawOf i = some o.raw := by unfold Heap.rawOf; rw [ho]; rfl
  have hty : o.ty = t.ty := by rw [ht]
  have shared : o.ty = ty → (s.heap.pushShared o).matrix s.heap.objs.length = some t := by
    intro _
    rw [matrix_of (h := s.heap.pushShared o) (o := { o with raw := false }) (b := b) (by simp [pushShared]) rfl hb, ht]
  refine ⟨fun hf => ?_, fun hf hd => ?_, fun hf hd => ?_⟩
  · refine computes_of (Does.wrap (reachable_wf hr) (.refl _) ?_ ty) (fun _ _ _ h => h.2.1)
    rw [hro] at hf
    rw [← hv]
    unfold Heap.matrix Heap.view
    rw [ho]
    simp only [Option.bind_some]
    rw [Option.some.inj hf]
    rfl
  · rw [hro] at hf
    unfold Computes TMat.ofNumpy
    by_cases he : t.nr = 0 ∨ t.nc = 0
    · rw [if_pos he]
      exact ⟨s.heap, by unfold HM.wrap; simp only [ho, hv]; rw [if_pos ⟨Option.some.inj hf, hty.trans hd, he⟩]⟩
    · rw [if_neg he]
      by_cases hs : o.ty = ty
      · refine ⟨s.heap.pushShared o, s.heap.objs.length, by unfold HM.wrap; simp only [ho, hv]; rw [if_neg (fun h => he h.2.2), if_pos hs], ?_⟩
        rw [shared hs, ← hs, hty]
      · have hx : t.toType ty = .ok ⟨ty, t.val⟩ := by
          have hsp : ty = .sparse := by cases ty with
            | sparse => rfl
            | dense => exact absurd (hty.trans hd) hs
          subst hsp
          unfold TMat.toType TMat.toSparse
          simp only [hd, TMat.ofNumpy]
          rw [if_neg he]
        exact ⟨s.heap.push false ⟨ty, t.val⟩, s.heap.objs.length,
          by unfold HM.wrap; simp only [ho, hv]; rw [if_neg (fun h => he h.2.2), if_neg hs, hx], (push_new s.heap _).mat⟩
  · have hne : ¬ (o.raw = true ∧ o.ty = .dense ∧ (t.nr = 0 ∨ t.nc = 0)) := by rw [hty, hd]; rintro ⟨_, h, _⟩; cases h
    by_cases hs : o.ty = ty
    · refine ⟨s.heap.pushShared o, s.heap.objs.length, by unfold HM.wrap; simp only [ho, hv]; rw [if_neg hne, if_pos hs], ?_⟩
      rw [shared hs, ← hs, hty]
    · have hx : t.toType ty = .ok ⟨ty, t.val⟩ := by
        cases ty with
        | dense => rfl
        | sparse => exact absurd (hty.trans hd) hs
      exact ⟨s.heap.push false ⟨ty, t.val⟩, s.heap.objs.length,
        by unfold HM.wrap; simp only [ho, hv]; rw [if_neg hne, if_neg hs, hx], (push_new s.heap _).mat⟩

/-- Scalings on stored matrices compute the documented matrix, although they use `plog()`, which writes in place. -/
theorem C93_scaling {env : Env} {s : Session} (hr : Reachable env s) {i : ℕ} {m : TMat ℝ}
    (hm : s.heap.matrix i = some m) (t : ScalingT) (st : Option Stats) :
    Computes (HM.scaling t i st) s.heap (t.apply m st) :=
  computes_of (Does.scaling (reachable_wf hr) hm t st) (fun _ _ _ h => h.1)

/-- The same for projection by a stored transformation matrix (which for nmf uses `to_non_negative()`). -/
theorem C93_project {env : Env} {s : Session} (hr : Reachable env s) {i j : ℕ} {m u : TMat ℝ}
    (hm : s.heap.matrix i = some m) (hu : s.heap.matrix j = some u) (t : DimRedT) {κ : Type} [DecidableEq κ] :
    Computes (HM.project t.isNmf i j) s.heap ((Op.dimred t (some u) : Op κ).project m) :=
  computes_of (Does.project (reachable_wf hr) hm hu t κ) (fun _ _ _ h => h.mat)

/-- The same for one phrase of a lexical function model, which reshapes a row in place: the row is a copy, so the
function space keeps its shape and the next phrase is composed correctly. -/
theorem C93_lexical {env : Env} {s : Session} (hr : Reachable env s) {κ : Type} [DecidableEq κ] {i j : ℕ}
    {fs arg : Space κ} (hi : s.heap.matrix i = some fs.mat) (hj : s.heap.matrix j = some arg.mat) (b : Bool) {f w : κ}
    {fi ai : ℤ} (hf : fs.row2id.getItem f = .ok fi) (ha : arg.row2id.getItem w = .ok ai) :
    Computes (HM.lexOne b i j fi ai fs.elemShape) s.heap (Dissect.lexOne b fs arg f w) :=
  computes_of (Does.lexOne (reachable_wf hr) hi hj b hf ha) (fun _ _ _ h => h.mat)

/-- The same for Lin similarity (`to_ones()` on the product): the number returned. -/
theorem C93_lin {env : Env} {s : Session} (hr : Reachable env s) {i j : ℕ} {u v : TMat ℝ}
    (hi : s.heap.matrix i = some u) (hj : s.heap.matrix j = some v) :
    (HM.linSim i j s.heap).2 = Dissect.linSim u v := by
  have hd := Does.linSim (reachable_wf hr) hi hj
  unfold Does at hd
  cases hx : Dissect.linSim u v with
  | error e => rw [hx] at hd; obtain ⟨h', hp, _⟩ := hd; rw [hp]
  | ok r => rw [hx] at hd; obtain ⟨h', k, hp, _, _, hk⟩ := hd; rw [hp, hk]

/-! ## C94: the result of a transformation is independent of its arguments -/

/-- In-place calls on objects of a set `P` leave alone every object outside `P` that reads other buffers. -/
theorem run_apart (env : Env) (P : ℕ → Prop) (j : ℕ) (hj : ¬ P j) :
    ∀ (cs : List HCall) (h : Heap), h.WF → (∃ b, h.bufOf j = some b) → (∀ i, P i → h.bufOf i ≠ h.bufOf j) →
      InPlaceOn P cs → (h.run env cs).view j = h.view j := by
  intro cs
  induction cs with
  | nil => intros; rfl
  | cons c cs ih =>
    intro h hw hjb hsep hcs
    obtain ⟨f, i, rfl, hPi⟩ := hcs c (by simp)
    have hch := inPlace_changes hw f i
    have hji : j ≠ i := fun hc => hj (hc ▸ hPi)
    have hv := hch.view_apart hji (fun hc => hsep i hPi hc.symm)
    have hbj : (f.run i h).1.bufOf j = h.bufOf j := by unfold Heap.bufOf; rw [hch.others j hji]
    show (Heap.run env ((HCall.inPlace f i).step env h).1 cs).view j = _
    rw [inPlace_step, ih _ hch.wf (by rw [hbj]; exact hjb) ?_ (fun c' h' => hcs c' (List.mem_cons_of_mem _ h')), hv]
    intro x hx
    rw [hbj]
    by_cases hxi : x = i
    · rw [hxi]
      rcases hch.own with ho | ⟨b, hb, ho⟩
      · rw [ho]; exact hsep i hPi
      · rw [ho]
        obtain ⟨b', hb'⟩ := hjb
        rw [hb']
        intro hc
        obtain rfl := Option.some.inj hc
        have := buf_lt hw hb'
        omega
    · have : (f.run i h).1.bufOf x = h.bufOf x := by unfold Heap.bufOf; rw [hch.others x hxi]
      rw [this]
      exact hsep x hx

/-- After any successful call except a constructor and a normalisation with total 0, the matrices it returned and
everything that existed before are independent: any in-place calls on a result leave all earlier matrices as they were,
and any in-place calls on earlier matrices leave the results as they are. What is missing: `Normalization` with
total 0 returns its argument (`C94_refuted`). -/
theorem C94_independent_partial {env : Env} {s : Session} (hr : Reachable env s) (c : HCall)
    (hip : c.isInPlace = false) (hg : c.gives = []) {h' : Heap} {rs : List ℕ} (hs : c.step env s.heap = (h', .ok rs))
    (hn : ∀ t i st m, c = .scaling t i st → s.heap.matrix i = some m → ¬ t.returnsArg m st) {r : ℕ} (hrs : r ∈ rs)
    {i : ℕ} (hi : i < s.heap.objs.length) (cs : List HCall) :
    (InPlaceOn (fun x => x = r) cs → (h'.run env cs).view i = s.heap.view i) ∧
    (InPlaceOn (fun x => x < s.heap.objs.length) cs → (h'.run env cs).view r = h'.view r) := by
  have hw := reachable_wf hr
  obtain ⟨hw', he'⟩ := step_frame env hw c hip
  rw [hs] at hw' he'
  rcases step_results env hw c hip hg hs with ⟨i', _, _, _, t, st, m, hc, hm, hret⟩ | ⟨hnew, _⟩
  · exact absurd hret (hn t i' st m hc hm)
  · obtain ⟨hri, b, hb, hbge⟩ := hnew r hrs
    have old : ∀ x, x < s.heap.objs.length → ∃ b', h'.bufOf x = some b' ∧ b' < s.heap.bufs.length := by
      intro x hx
      rw [ext_bufOf he' hx]
      have : s.heap.bufOf x = some (s.heap.objs[x].buf) := by
        unfold Heap.bufOf; rw [List.getElem?_eq_getElem hx]; rfl
      exact ⟨_, this, buf_lt hw this⟩
    have sep : ∀ x, x < s.heap.objs.length → h'.bufOf x ≠ h'.bufOf r := by
      intro x hx hc
      obtain ⟨b', hb', hlt⟩ := old x hx
      rw [hb', hb] at hc
      obtain rfl := Option.some.inj hc
      omega
    refine ⟨fun hcs => ?_, fun hcs => ?_⟩
    · obtain ⟨b', hb', _⟩ := old i hi
      rw [run_apart env (fun x => x = r) i (by omega) cs h' hw' ⟨b', hb'⟩
        (fun x hx => by rw [hx]; exact (sep i hi).symm) hcs]
      exact he'.same hw hi
    · exact run_apart env (fun x => x < s.heap.objs.length) r (by omega) cs h' hw' ⟨b, hb⟩ sep hcs

/-- Converting to the other class also gives an independent matrix. -/
theorem C94_convert {env : Env} {s : Session} (hr : Reachable env s) {ty : MTy} {i : ℕ} {t : TMat ℝ}
    (hv : s.heap.view i = some t) (hty : t.ty ≠ ty) {h' : Heap} {rs : List ℕ}
    (hs : (HCall.wrap ty i).step env s.heap = (h', .ok rs)) {r : ℕ} (hrs : r ∈ rs) {j : ℕ}
    (hj : j < s.heap.objs.length) (cs : List HCall) :
    (InPlaceOn (fun x => x = r) cs → (h'.run env cs).view j = s.heap.view j) ∧
    (InPlaceOn (fun x => x < s.heap.objs.length) cs → (h'.run env cs).view r = h'.view r) := by
  have hw := reachable_wf hr
  obtain ⟨hw', he'⟩ := step_frame env hw (.wrap ty i) rfl
  rw [hs] at hw' he'
  rw [HCall.step, map_run] at hs
  rcases hx : HM.wrap ty i s.heap with ⟨h1, e | k⟩
  · rw [hx] at hs; simp [Except.map] at hs
  · rw [hx] at hs
    simp only [Except.map, Prod.mk.injEq, Except.ok.injEq] at hs
    obtain ⟨rfl, rfl⟩ := hs
    rw [List.mem_singleton] at hrs
    subst hrs
    obtain ⟨rfl, o, t2, ho, hv2, hty2, hcase⟩ := wrap_cases hx
    rw [hv] at hv2
    obtain rfl := Option.some.inj hv2
    rcases hcase with ⟨hsame, _⟩ | ⟨_, t', _, rfl⟩
    · exact absurd (hty2.trans hsame) hty
    · have hb : (s.heap.push false t').bufOf s.heap.objs.length = some s.heap.bufs.length := by
        simp [Heap.bufOf, Heap.push]
      have old : ∀ x, x < s.heap.objs.length → ∃ b', (s.heap.push false t').bufOf x = some b' ∧ b' < s.heap.bufs.length := by
        intro x hx
        rw [ext_bufOf he' hx]
        have : s.heap.bufOf x = some (s.heap.objs[x].buf) := by
          unfold Heap.bufOf; rw [List.getElem?_eq_getElem hx]; rfl
        exact ⟨_, this, buf_lt hw this⟩
      have sep : ∀ x, x < s.heap.objs.length →
          (s.heap.push false t').bufOf x ≠ (s.heap.push false t').bufOf s.heap.objs.length := by
        intro x hx hc
        obtain ⟨b', hb', hlt⟩ := old x hx
        rw [hb', hb] at hc
        obtain rfl := Option.some.inj hc
        omega
      refine ⟨fun hcs => ?_, fun hcs => ?_⟩
      · obtain ⟨b', hb', _⟩ := old j hj
        rw [run_apart env (fun x => x = s.heap.objs.length) j (by omega) cs _ hw' ⟨b', hb'⟩
          (fun x hx => by rw [hx]; exact (sep j hj).symm) hcs]
        exact he'.same hw hj
      · exact run_apart env (fun x => x < s.heap.objs.length) s.heap.objs.length (by omega) cs _ hw' ⟨_, hb⟩ sep hcs

/-! ### The exception -/

/-- `x = SparseMatrix(a)` or `x = DenseMatrix(a)` for a new array `a`: object 0 is the array, object 1 is `x`. -/
def exSession (env : Env) (t : TMat ℝ) (ty : MTy) : Session :=
  (Session.start.step env (.array t)).step env (.wrap ty 0)

theorem exSession_reachable (env : Env) (t : TMat ℝ) (ty : MTy) : Reachable env (exSession env t ty) := by
  refine .step _ (.step _ .start (by simp [HCall.args])) ?_
  intro i hi
  have : (Session.start.step env (.array t)).held = [0] := rfl
  rw [this]
  simpa [HCall.args] using hi

/-- A matrix with one row `1, -1`. -/
def onePair : Mat ℝ := Mat.of 1 2 (fun _ j => if j = 0 then 1 else -1)

theorem onePair_sum : (⟨.sparse, onePair⟩ : TMat ℝ).sumAll = 0 := by
  simp [TMat.sumAll, Mat.total, Mat.rowSum, onePair, Mat.of, Finset.sum_range_succ]

theorem exSparse_heap (env : Env) : (exSession env ⟨.dense, onePair⟩ .sparse).heap =
    ⟨[onePair, onePair.reshape 1 2], [⟨true, .dense, 0, 1, 2⟩, ⟨false, .sparse, 1, 1, 2⟩]⟩ := by
  rfl

theorem exDense_heap (env : Env) : (exSession env ⟨.dense, onePair⟩ .dense).heap =
    ⟨[onePair], [⟨true, .dense, 0, 1, 2⟩, ⟨false, .dense, 0, 1, 2⟩]⟩ := by
  rfl

/-- C94 fails: `y = Normalization().apply(x)` with `x` summing to 0 is `x` itself, so `y.to_ones()` changes `x`. -/
theorem C94_refuted (env : Env) : ¬ ∀ (s : Session), Reachable env s → ∀ (t : ScalingT) (i : ℕ) (h' : Heap) (r : ℕ),
    i ∈ s.held → HM.scaling t i none s.heap = (h', .ok r) → ∀ f : InPlace,
      ((f.run r) h').1.view i = s.heap.view i := by
  intro hall
  have hres : onePair.reshape 1 2 = onePair := Mat.reshape_self onePair
  have hm : (exSession env ⟨.dense, onePair⟩ .sparse).heap.matrix 1 = some ⟨.sparse, onePair⟩ := by
    rw [exSparse_heap, hres]
    unfold Heap.matrix Heap.value
    simp [hres]
  have hrun : HM.scaling (.norm .sum) 1 none (exSession env ⟨.dense, onePair⟩ .sparse).heap =
      ((exSession env ⟨.dense, onePair⟩ .sparse).heap, .ok 1) := by
    show HM.normalization .sum 1 none _ = _
    unfold HM.normalization
    rw [read_bind hm]
    have : (none : Option ℝ).getD (normTotal .sum (⟨.sparse, onePair⟩ : TMat ℝ)) = 0 := onePair_sum
    simp only [this, if_true]
    rfl
  have := hall _ (exSession_reachable env ⟨.dense, onePair⟩ .sparse) (.norm .sum) 1 _ 1 (by
    show 1 ∈ [0] ++ [1]
    simp) hrun .ones
  have hv := inPlace_value (reachable_wf (exSession_reachable env ⟨.dense, onePair⟩ .sparse)) .ones hm
  simp only [InPlace.eval] at hv
  obtain ⟨h2, hr2, hm2⟩ := hv
  rw [hr2, matrix_view hm, matrix_view hm2] at this
  have h3 := congrArg (fun t : TMat ℝ => t.val.get 0 1) (Option.some.inj this)
  simp [TMat.toOnes, Mat.map, onePair, Mat.of] at h3
  norm_num at h3

/-- Non-vacuous for C93 and C94: `y = PlogWeighting().apply(x)` for the matrix `1, -1` succeeds, `x` is object 1, the result is
object 2; `y.to_ones()` afterwards leaves `x` alone. -/
example (env : Env) : ∃ h', (HCall.scaling .plog 1 none).step env (exSession env ⟨.dense, onePair⟩ .dense).heap = (h', .ok [2]) ∧
    (h'.run env [.inPlace .ones 2]).view 1 = some ⟨.dense, onePair⟩ := by
  have hre := exSession_reachable env ⟨.dense, onePair⟩ .dense
  have hres : onePair.reshape 1 2 = onePair := Mat.reshape_self onePair
  have hv : (exSession env ⟨.dense, onePair⟩ .dense).heap.view 1 = some ⟨.dense, onePair⟩ := by
    rw [exDense_heap]; unfold Heap.view Heap.value; simp [hres]
  refine ⟨_, rfl, ?_⟩
  rw [← hv]
  exact (C94_independent_partial hre (.scaling .plog 1 none) rfl rfl rfl
    (fun t i st m h _ => by injection h with h1 h2 h3; subst h1; exact id) (r := 2) (by simp [exDense_heap]) (i := 1)
    (by rw [exDense_heap]; simp) _).1 (by intro c hc; rw [List.mem_singleton] at hc; exact ⟨.ones, 2, hc, rfl⟩)

/-! ## C95: an in-place method changes only the matrix it is called on -/

/-- The receiver gets the documented value, whatever else the program holds; a refused call changes nothing. -/
theorem C95_receiver {env : Env} {s : Session} (hr : Reachable env s) (f : InPlace) {i : ℕ} {t : TMat ℝ}
    (hm : s.heap.matrix i = some t) :
    (∀ r, f.eval t = .ok r → (f.run i s.heap).2 = .ok () ∧ (f.run i s.heap).1.matrix i = some r) ∧
    (∀ e, f.eval t = .error e → f.run i s.heap = (s.heap, .error e)) := by
  have hv := inPlace_value (reachable_wf hr) f hm
  refine ⟨fun r hx => ?_, fun e hx => ?_⟩
  · rw [hx] at hv
    obtain ⟨h', hp, hm'⟩ := hv
    rw [hp]
    exact ⟨rfl, hm'⟩
  · rw [hx] at hv
    exact hv

/-- C95 fails: after `y = DenseMatrix(x)`, `y.plog()` changes `x`. -/
theorem C95_refuted (env : Env) : ¬ ∀ (s : Session), Reachable env s → ∀ (f : InPlace) (i j : ℕ) (t : TMat ℝ),
    i ∈ s.held → j ∈ s.held → i ≠ j → s.heap.matrix j = some t → (f.run i s.heap).1.matrix j = some t := by
  intro hall
  have hres : onePair.reshape 1 2 = onePair := Mat.reshape_self onePair
  have hre : Reachable env ((exSession env ⟨.dense, onePair⟩ .dense).step env (.wrap .dense 1)) := by
    refine .step _ (exSession_reachable env ⟨.dense, onePair⟩ .dense) ?_
    intro i hi
    have h1 : (exSession env ⟨.dense, onePair⟩ .dense).held = [0, 1] := rfl
    have h2 : i = 1 := by simpa [HCall.args] using hi
    rw [h1, h2]
    simp
  have hheap : ((exSession env ⟨.dense, onePair⟩ .dense).step env (.wrap .dense 1)).heap =
      ⟨[onePair], [⟨true, .dense, 0, 1, 2⟩, ⟨false, .dense, 0, 1, 2⟩, ⟨false, .dense, 0, 1, 2⟩]⟩ := rfl
  have hheld : ((exSession env ⟨.dense, onePair⟩ .dense).step env (.wrap .dense 1)).held = [0, 1, 2] := rfl
  have := hall _ hre .plog 2 1 ⟨.dense, onePair⟩ (by rw [hheld]; simp) (by rw [hheld]; simp) (by omega)
    (by rw [hheap]; unfold Heap.matrix Heap.value; simp [hres])
  have hafter : (HM.plogIn 2 ((exSession env ⟨.dense, onePair⟩ .dense).step env (.wrap .dense 1)).heap).1.matrix 1 =
      some ⟨.dense, (onePair.map (fun x => if x < 1 then 1 else x)).reshape 1 2⟩ := rfl
  have h2 : (InPlace.plog.run 2 ((exSession env ⟨.dense, onePair⟩ .dense).step env (.wrap .dense 1)).heap).1.matrix 1 =
      some ⟨.dense, (onePair.map (fun x => if x < 1 then 1 else x)).reshape 1 2⟩ := hafter
  rw [h2, Mat.reshape_map (A := onePair) (nr := 1) (nc := 2) rfl, hres] at this
  have h3 := congrArg (fun t : TMat ℝ => t.val.get 0 1) (Option.some.inj this)
  simp [Mat.map, onePair, Mat.of] at h3
  norm_num at h3

/-- In a program that gives every array to a constructor at most once, and never builds a matrix from a matrix of the
same class, an in-place method leaves every other matrix the program holds as it was. What is missing: constructors keep
a reference to an argument of their own class (`C95_refuted`). -/
theorem C95_others_partial {env : Env} {s : Session} (hr : ReachableOnce env s) (f : InPlace) {i j : ℕ} {t : TMat ℝ}
    (hi : i ∈ s.held) (hj : j ∈ s.held) (hij : i ≠ j) (hm : s.heap.matrix j = some t) :
    (f.run i s.heap).1.matrix j = some t := by
  have hI := inv_once hr
  obtain ⟨oj, bj, hoj, hrj, hbj, ht⟩ := matrix_some hm
  cases hmi : s.heap.matrix i with
  | none => rw [inPlace_none hmi]; exact hm
  | some ti =>
    obtain ⟨oi, bi, hoi, hri, _, _⟩ := matrix_some hmi
    have hch := inPlace_changes hI.wf f i
    have hb : s.heap.bufOf j ≠ s.heap.bufOf i := by
      intro hc
      rcases hI.sep i hi j hj hij hc.symm with h1 | h1
      · have := h1.1
        unfold Heap.rawOf at this
        rw [hoi] at this
        simp [hri] at this
      · have := h1.1
        unfold Heap.rawOf at this
        rw [hoj] at this
        simp [hrj] at this
    have hv := hch.view_apart (Ne.symm hij) hb
    rw [matrix_view hm] at hv
    obtain ⟨o, b, ho, hb', ht'⟩ := view_some hv
    have ho2 : (f.run i s.heap).1.objs[j]? = some oj := by rw [hch.others j (Ne.symm hij)]; exact hoj
    rw [ho2] at ho
    obtain rfl := Option.some.inj ho
    rw [matrix_of ho2 hrj hb', ht']

/-- Non-vacuous: two matrices built from two arrays, in such a history; `plog()` on the first, a dense one sharing its
array with the caller's numpy matrix. -/
example (env : Env) : ∃ s, ReachableOnce env s ∧ 2 ∈ s.held ∧ 3 ∈ s.held ∧
    s.heap.matrix 2 = some ⟨.dense, onePair⟩ ∧ s.heap.matrix 3 = some ⟨.sparse, onePair⟩ ∧
    (InPlace.plog.run 2 s.heap).1.matrix 3 = some ⟨.sparse, onePair⟩ := by
  have hres : onePair.reshape 1 2 = onePair := Mat.reshape_self onePair
  let s1 := Session.start.step env (.array ⟨.dense, onePair⟩)
  let s2 := s1.step env (.array ⟨.dense, onePair⟩)
  let s3 := s2.step env (.wrap .dense 0)
  let s4 := s3.step env (.wrap .sparse 1)
  have r2 : ReachableOnce env s2 :=
    .step _ (.step _ .start (by simp [HCall.args]) (fun _ _ h => by cases h)) (by simp [HCall.args])
      (fun _ _ h => by cases h)
  have r3 : ReachableOnce env s3 := by
    refine .step _ r2 ?_ ?_
    · intro i hi
      have h1 : s2.held = [0, 1] := rfl
      have h2 : i = 0 := by simpa [HCall.args] using hi
      rw [h1, h2]; simp
    · intro ty i h
      injection h with h1 h2
      subst h1 h2
      exact ⟨_, rfl, Or.inr ⟨rfl, by show 0 ∉ ([] : List ℕ); simp⟩⟩
  have r4 : ReachableOnce env s4 := by
    refine .step _ r3 ?_ ?_
    · intro i hi
      have h1 : s3.held = [0, 1, 2] := rfl
      have h2 : i = 1 := by simpa [HCall.args] using hi
      rw [h1, h2]; simp
    · intro ty i h
      injection h with h1 h2
      subst h1 h2
      exact ⟨_, rfl, Or.inl (by show MTy.dense ≠ .sparse; decide)⟩
  have hheld : s4.held = [0, 1, 2, 3] := rfl
  have hheap : s4.heap = ⟨[onePair, onePair, onePair.reshape 1 2],
    [⟨true, .dense, 0, 1, 2⟩, ⟨true, .dense, 1, 1, 2⟩, ⟨false, .dense, 0, 1, 2⟩, ⟨false, .sparse, 2, 1, 2⟩]⟩ := rfl
  have hm2 : s4.heap.matrix 2 = some ⟨.dense, onePair⟩ := by
    rw [hheap]; unfold Heap.matrix Heap.value; simp [hres]
  have hm3 : s4.heap.matrix 3 = some ⟨.sparse, onePair⟩ := by
    rw [hheap]; unfold Heap.matrix Heap.value; simp [hres]
  exact ⟨s4, r4, by rw [hheld]; simp, by rw [hheld]; simp, hm2, hm3,
    C95_others_partial r4 .plog (by rw [hheld]; simp) (by rw [hheld]; simp) (by omega) hm3⟩

end
end Dissect
