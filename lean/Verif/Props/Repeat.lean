import Verif.Lemmas.Repeat
import Verif.Props.TrainOrder
import Verif.Props.IdealTrain

/-! # C138: repeating the training data -/

namespace Dissect
open Finset
noncomputable section
variable {κ : Type} [DecidableEq κ]

theorem train_repeat (env : Env) (c : Composer κ) (data : List (Triple κ)) {k : ℕ} (hk : 0 < k)
    (args : ArgSpace κ) (s1 s2 p : Space κ)
    (hx : args.extract = .ok (s1, s2)) (h1 : s1.WF) (h2 : s2.WF) (hp : p.WF) (hc : c.model.trainable = true)
    (H : trainTriples s1 s2 p data ≠ [] → ∀ v, v = (List.replicate k (trainTriples s1 s2 p data)).flatten →
      c.model.trainOn env s1 s2 p (v.map (·.1)) (v.map (·.2.1)) (v.map (·.2.2)) =
      c.model.trainOn env s1 s2 p ((trainTriples s1 s2 p data).map (·.1)) ((trainTriples s1 s2 p data).map (·.2.1))
        ((trainTriples s1 s2 p data).map (·.2.2))) :
    c.train env (List.replicate k data).flatten args p = c.train env data args p := by
  have hv : trainTriples s1 s2 p (List.replicate k data).flatten = (List.replicate k (trainTriples s1 s2 p data)).flatten :=
    filter_repeat k data _
  by_cases h0 : trainTriples s1 s2 p data = []
  · have h0' : trainTriples s1 s2 p (List.replicate k data).flatten = [] := by rw [hv, h0, repeat_nil]
    rw [train_nothing env c data args s1 s2 p hx h1 h2 hp h0 hc, train_nothing env c _ args s1 s2 p hx h1 h2 hp h0' hc]
    have : (List.replicate k data).flatten = [] ↔ data = [] :=
      ⟨fun h => by by_contra hd; exact repeat_ne_nil hk hd h, fun h => by rw [h, repeat_nil]⟩
    simp only [this]
  · have h0' : trainTriples s1 s2 p (List.replicate k data).flatten ≠ [] := by rw [hv]; exact repeat_ne_nil hk h0
    rw [train_reduce env c data args s1 s2 p hx h1 h2 hp h0 hc, train_reduce env c _ args s1 s2 p hx h1 h2 hp h0' hc, hv,
      H h0 _ rfl]

theorem mem_repeat {k : ℕ} {l : List (Triple κ)} {t : Triple κ} (h : t ∈ (List.replicate k l).flatten) : t ∈ l := by
  obtain ⟨l', h', ht⟩ := List.mem_flatten.1 h
  rw [(List.mem_replicate.1 h').2] at ht
  exact ht

/-- **C138** `Dilation`, with any numerical library: training on the data repeated `k` times gives the same object (or the
same exception) as training on the data. -/
theorem C138_dilation_partial (env : Env) (c : Composer κ) (l0 : ℝ) (hc : c.model = .dilation l0)
    (data : List (Triple κ)) {k : ℕ} (hk : 0 < k) (args : ArgSpace κ) (s1 s2 p : Space κ) (n : ℕ)
    (hx : args.extract = .ok (s1, s2)) (h1 : s1.WF) (h2 : s2.WF) (hp : p.WF) (hn : 0 < n)
    (n1 : s1.mat.nc = n) (n2 : s2.mat.nc = n) (n3 : p.mat.nc = n) :
    c.train env (List.replicate k data).flatten args p = c.train env data args p := by
  refine train_repeat env c data hk args s1 s2 p hx h1 h2 hp (by rw [hc]; rfl) (fun h0 v hv => ?_)
  rw [hc, dilation_trainOn env h1 h2 hp hn n1 n2 n3 _ (by rw [hv]; exact repeat_ne_nil hk h0)
      (fun t ht => trainTriples_mem (mem_repeat (hv ▸ ht))),
    dilation_trainOn env h1 h2 hp hn n1 n2 n3 _ h0 (fun t ht => trainTriples_mem ht), hv]
  have hk0 : (k : ℝ) ≠ 0 := by exact_mod_cast hk.ne'
  simp only [sum_repeat, ne_eq, mul_eq_zero, hk0, false_or]
  split
  · rw [mul_div_mul_left _ _ hk0]
  · rfl

/-- **C138** `WeightedAdditive`, when the chunk size divides the number of usable triples (for example always when the
phrase space has fewer than 15 rows) and `np.linalg.pinv` keeps its equations. -/
theorem C138_weighted_partial (env : Env) (henv : env.Ideal) (c : Composer κ) (a0 b0 : ℝ) (hc : c.model = .weighted a0 b0)
    (data : List (Triple κ)) {k : ℕ} (hk : 0 < k) (args : ArgSpace κ) (s1 s2 p : Space κ) (n : ℕ)
    (hx : args.extract = .ok (s1, s2)) (h1 : s1.WF) (h2 : s2.WF) (hp : p.WF) (hn : 0 < n)
    (n1 : s1.mat.nc = n) (n2 : s2.mat.nc = n) (n3 : p.mat.nc = n)
    (hdvd : (p.mat.nr / 15 + 1) ∣ (trainTriples s1 s2 p data).length) :
    c.train env (List.replicate k data).flatten args p = c.train env data args p := by
  refine train_repeat env c data hk args s1 s2 p hx h1 h2 hp (by rw [hc]; rfl) (fun h0 v hv => ?_)
  have hlen : v.length = k * (trainTriples s1 s2 p data).length := by rw [hv]; simp
  rw [hc, weighted_trainOn env h1 h2 hp hn n1 n2 n3 _ (by rw [hlen]; exact Dvd.dvd.mul_left hdvd k)
      (fun t ht => trainTriples_mem (mem_repeat (hv ▸ ht))),
    weighted_trainOn env h1 h2 hp hn n1 n2 n3 _ hdvd (fun t ht => trainTriples_mem ht), hv]
  have hk0 : (k : ℝ) ≠ 0 := by exact_mod_cast hk.ne'
  set w := trainTriples s1 s2 p data
  have hd : dotsOf s1 s2 p n (List.replicate k w).flatten =
      ⟨k * (dotsOf s1 s2 p n w).d12, k * (dotsOf s1 s2 p n w).d1p, k * (dotsOf s1 s2 p n w).d2p,
        k * (dotsOf s1 s2 p n w).n1, k * (dotsOf s1 s2 p n w).n2⟩ := by
    simp only [dotsOf, sum_repeat]
  rw [hd]
  set d := dotsOf s1 s2 p n w
  have key : train2 env ⟨k * d.d12, k * d.d1p, k * d.d2p, k * d.n1, k * d.n2⟩ = train2 env d := by
    set G : Mat ℝ := Mat.of 2 2 (fun i j => if i = 0 ∧ j = 0 then d.n1 else if i = 1 ∧ j = 1 then d.n2 else d.d12) with hG
    have hGk : Mat.of 2 2 (fun i j => if i = 0 ∧ j = 0 then k * d.n1 else if i = 1 ∧ j = 1 then k * d.n2 else k * d.d12) =
        G.smul (k : ℝ) := by
      refine Mat.ext' rfl rfl (fun i j hi hj => ?_)
      have hi' : i < 2 := hi
      have hj' : j < 2 := hj
      rw [Mat.smul_get, hG, Mat.of_get_lt hi' hj', Mat.of_get_lt hi' hj']
      split
      · rfl
      · split <;> rfl
    obtain ⟨P, hP, hpin⟩ := henv.pinv G
    obtain ⟨Q, hQ, hqin⟩ := henv.pinv (G.smul (k : ℝ))
    obtain rfl := hqin.unique (hpin.smul hk0)
    have hPc : P.nc = 2 := hpin.nc
    have hB : Mat.of 2 1 (fun i _ => if i = 0 then k * d.d1p else k * d.d2p) =
        (Mat.of 2 1 (fun i _ => if i = 0 then d.d1p else d.d2p)).smul (k : ℝ) := by
      refine Mat.ext' rfl rfl (fun i j hi hj => ?_)
      have hi' : i < 2 := hi
      have hj' : j < 1 := hj
      rw [Mat.smul_get, Mat.of_get_lt hi' hj', Mat.of_get_lt hi' hj']
      split <;> rfl
    unfold train2
    simp only [hGk, hQ, ok_bind, hB]
    rw [← hG, hP, ok_bind, Mat.smul_mul, Mat.mul_smul, Mat.smul_smul, inv_mul_cancel₀ hk0, Mat.one_smul']
  rw [key]

/-- **C138** `FullAdditive` with the least-squares learner, with or without intercept, on dense and sparse spaces. -/
theorem C138_full_additive_partial (env : Env) (henv : env.Ideal) (c : Composer κ) (at0 bt0 : Option (TMat ℝ)) (i0 ic : Bool)
    (hc : c.model = .fullAdditive at0 bt0 i0 (some (.lstsq ic))) (data : List (Triple κ)) {k : ℕ} (hk : 0 < k)
    (args : ArgSpace κ) (s1 s2 p : Space κ) (hx : args.extract = .ok (s1, s2)) (h1 : s1.WF) (h2 : s2.WF) (hp : p.WF)
    (n1 : 0 < s1.mat.nc) (n2 : 0 < s2.mat.nc) (n3 : 0 < p.mat.nc) :
    c.train env (List.replicate k data).flatten args p = c.train env data args p := by
  refine train_repeat env c data hk args s1 s2 p hx h1 h2 hp (by rw [hc]; rfl) (fun h0 v hv => ?_)
  rw [hc, full_trainOn env h1 h2 hp n1 n2 n3 _ (by rw [hv]; exact repeat_ne_nil hk h0)
      (fun t ht => trainTriples_mem (mem_repeat (hv ▸ ht))),
    full_trainOn env h1 h2 hp n1 n2 n3 _ h0 (fun t ht => trainTriples_mem ht), hv,
    lstsq_repeat henv hk h0 (sampleTy s1 s2 p) (by omega) n3]

theorem lexTrainLoop_congr2 (env : Env) (l : Learner) (arg phrase : Space κ) (v v' : List (Triple κ)) (size : ℕ)
    (ranges ranges' : List (ℕ × ℕ)) (hlen : ranges.length = ranges'.length)
    (h : ∀ (i : ℕ) (r r' : ℕ × ℕ), ranges[i]? = some r → ranges'[i]? = some r' →
      lexTrainOne env l arg phrase (((v.take r.2).drop r.1).map (·.2.1)) (((v.take r.2).drop r.1).map (·.2.2)) size =
      lexTrainOne env l arg phrase (((v'.take r'.2).drop r'.1).map (·.2.1)) (((v'.take r'.2).drop r'.1).map (·.2.2)) size) :
    lexTrainLoop env l arg phrase (v.map (·.2.1)) (v.map (·.2.2)) size ranges =
      lexTrainLoop env l arg phrase (v'.map (·.2.1)) (v'.map (·.2.2)) size ranges' := by
  induction ranges generalizing ranges' with
  | nil =>
    cases ranges' with
    | nil => rfl
    | cons r' rs' => simp at hlen
  | cons r rs ih =>
    cases ranges' with
    | nil => simp at hlen
    | cons r' rs' =>
      have h0 := h 0 r r' rfl rfl
      unfold lexTrainLoop
      simp only [slice, slice_map]
      rw [h0, ih rs' (by simpa using hlen) (fun i q q' hq hq' => h (i + 1) q q' hq hq')]

/-- **C138** `LexicalFunction` with the least-squares learner, when the repetition lifts no further word over the threshold
`min_samples` (with the default `min_samples = 1` always). -/
theorem C138_lexical_partial (env : Env) (henv : env.Ideal) (le : κ → κ → Bool)
    (htrans : ∀ a b c, le a b = true → le b c = true → le a c = true)
    (htotal : ∀ a b, (le a b || le b a) = true) (hanti : ∀ a b, le a b = true → le b a = true → a = b)
    (m : LexFun κ) (ic : Bool) (hm : m.learner = .lstsq ic) (data : List (Triple κ)) {k : ℕ} (hk : 0 < k) (arg phrase : Space κ)
    (ha : arg.WF) (hp : phrase.WF) (na : 0 < arg.mat.nc) (np : 0 < phrase.mat.nc) (hms : 1 ≤ m.minSamples)
    (hthr : ∀ f, m.minSamples ≤ k * ((lexSamples arg phrase data f).length : ℤ) →
      m.minSamples ≤ ((lexSamples arg phrase data f).length : ℤ)) :
    m.train env le (List.replicate k data).flatten arg phrase = m.train env le data arg phrase := by
  set data' := (List.replicate k data).flatten with hdata'
  set V : List (Triple κ) → List (Triple κ) := fun d => (d.mergeSort (fun x y => le x.1 y.1)).filter (fun t =>
      knownIn none t.1 && knownIn (some arg.row2id) t.2.1 && knownIn (some phrase.row2id) t.2.2) with hV
  have hsamp : ∀ d f, (V d).filter (fun t => decide (t.1 = f)) = lexSamples arg phrase d f := fun d =>
    sorted_samples htrans htotal ha hp d
  have hrep : ∀ f, lexSamples arg phrase data' f = (List.replicate k (lexSamples arg phrase data f)).flatten := fun f =>
    filter_repeat k data _
  have hcnt : ∀ f, ((lexSamples arg phrase data' f).length : ℤ) = k * ((lexSamples arg phrase data f).length : ℤ) := by
    intro f
    rw [hrep]
    simp
  have hsort : ∀ d, ((V d).map (·.1)).Pairwise (fun a b => le a b = true) := by
    intro d
    rw [List.pairwise_map]
    exact (List.pairwise_mergeSort (le := fun x y : Triple κ => le x.1 y.1) (fun a b c => htrans _ _ _)
      (fun a b => htotal _ _) d).filter _
  obtain ⟨keys, ranges, g1, g2, g3, g4, g5, g6⟩ := partitions_sorted hanti (V data) (hsort data) m.minSamples hms
  obtain ⟨keys', ranges', g1', g2', g3', g4', g5', g6'⟩ := partitions_sorted hanti (V data') (hsort data') m.minSamples hms
  have hkeys : keys' = keys := by
    refine List.Perm.eq_of_pairwise (fun a b _ _ h1 h2 => hanti a b h1 h2) g4' g4 ?_
    rw [List.perm_ext_iff_of_nodup g3' g3]
    intro f
    rw [g5 f, g5' f, hsamp, hsamp, hcnt]
    refine ⟨hthr f, fun h => ?_⟩
    have hk1 : (1 : ℤ) ≤ k := by exact_mod_cast hk
    nlinarith
  subst hkeys
  have hmem : ∀ d, ∀ f, ∀ t ∈ lexSamples arg phrase d f, t.2.1 ∈ arg.id2row ∧ t.2.2 ∈ phrase.id2row := by
    intro d f t ht
    rw [lexSamples, List.mem_filter, decide_eq_true_eq] at ht
    exact ht.2.2
  have hloop : ∀ size, lexTrainLoop env m.learner arg phrase ((V data').map (·.2.1)) ((V data').map (·.2.2)) size ranges' =
      lexTrainLoop env m.learner arg phrase ((V data).map (·.2.1)) ((V data).map (·.2.2)) size ranges := by
    intro size
    refine lexTrainLoop_congr2 env m.learner arg phrase _ _ size ranges' ranges (by omega) (fun i r r' hr hr' => ?_)
    have hi := (List.getElem?_eq_some_iff.1 hr).1
    have hik : i < keys'.length := by omega
    rw [g6' i r keys'[i] hr (List.getElem?_eq_getElem hik), g6 i r' keys'[i] hr' (List.getElem?_eq_getElem hik)]
    set f := keys'[i] with hf
    have hcount := (g5 f).1 (List.getElem_mem hik)
    rw [hsamp] at hcount
    rw [hsamp, hsamp]
    have hne : lexSamples arg phrase data f ≠ [] := by
      intro h
      rw [h] at hcount
      simp at hcount
      omega
    have hne' : lexSamples arg phrase data' f ≠ [] := by rw [hrep]; exact repeat_ne_nil hk hne
    rw [lexTrainOne_eq env m.learner ha hp na np _ hne (hmem data f) size,
      lexTrainOne_eq env m.learner ha hp na np _ hne' (hmem data' f) size, hrep, hm,
      lstsq_repeat henv hk hne (lexTy arg phrase) na np]
  have hnil : ∀ d : List (Triple κ), d.mergeSort (fun x y => le x.1 y.1) = [] ↔ d = [] := by
    intro d
    rw [← List.length_eq_zero_iff, List.length_mergeSort, List.length_eq_zero_iff]
  have hdnil : data' = [] ↔ data = [] :=
    ⟨fun h => by by_contra hd; exact repeat_ne_nil hk hd h, fun h => by rw [hdata', h, repeat_nil]⟩
  have hvnil : V data' = [] ↔ V data = [] := by
    have hl : ∀ d, V d = [] ↔ ∀ f, lexSamples arg phrase d f = [] := by
      intro d
      constructor
      · intro h f
        rw [← hsamp, h]
        rfl
      · intro h
        rw [List.eq_nil_iff_forall_not_mem]
        intro t ht
        have := h t.1
        rw [← hsamp] at this
        exact List.not_mem_nil (this ▸ List.mem_filter.2 ⟨ht, by simp⟩)
    rw [hl, hl]
    constructor
    · intro h f
      by_contra hne
      have h' := h f
      rw [hrep] at h'
      exact repeat_ne_nil hk hne h'
    · intro h f
      rw [hrep, h f, repeat_nil]
  unfold LexFun.train
  simp only
  rw [validData_eq none (some arg.row2id) (some phrase.row2id) _ (V data) rfl,
    validData_eq none (some arg.row2id) (some phrase.row2id) _ (V data') rfl]
  by_cases h1 : data = []
  · rw [if_pos ((hnil _).2 h1), if_pos ((hnil _).2 (hdnil.2 h1))]
  · rw [if_neg (fun h => h1 ((hnil _).1 h)), if_neg (fun h => h1 (hdnil.1 ((hnil _).1 h)))]
    by_cases h2 : V data = []
    · rw [if_pos h2, if_pos (hvnil.2 h2)]
    · rw [if_neg h2, if_neg (fun h => h2 (hvnil.1 h))]
      simp only [ok_bind]
      rw [g1, g1']
      simp only [ok_bind, hloop]

/-- **C138** `RidgeRegressionLearner(param=p)`, with or without intercept, dense or sparse: training on the samples
repeated `k` times with the parameter `k * p` gives the coefficients of the samples with `p`; so with a fixed positive
parameter every repetition weakens the regularisation, and only `p = 0` is unaffected. -/
theorem C138_ridge_partial (env : Env) (henv : env.Ideal) {α : Type} (l : List α) (hl : l ≠ []) {k : ℕ} (hk : 0 < k) (ty : MTy)
    {n m : ℕ} (hn : 0 < n) (hm : 0 < m) (x y : α → ℕ → ℝ) (p : ℝ) (ic : Bool) (r r' : List ℝ) :
    (Learner.ridge ic false r (some (k * p))).train env ⟨ty, rowsMat n x (List.replicate k l).flatten⟩
        ⟨ty, rowsMat m y (List.replicate k l).flatten⟩ =
      (Learner.ridge ic false r' (some p)).train env ⟨ty, rowsMat n x l⟩ ⟨ty, rowsMat m y l⟩ := by
  obtain ⟨a, b, h1, h2, h3⟩ := ridge_repeat henv hk hl ty hn hm x y p ic
  simp only [Learner.train, h1, h2, ok_bind, h3]

/-- **C138** is false for `WeightedAdditive` as soon as the phrase space has 15 rows: only whole chunks of training pairs are
looked at. One usable triple, given once, is ignored and the trained weights are 0 and 0; given twice, it is used and the
weights are 1 and 0. -/
theorem C138_weighted_refuted (env : Env) (henv : env.Ideal) :
    ∃ (c : Composer ℕ) (s : Space ℕ) (t : Triple ℕ), newWeighted .absent .absent = .ok c ∧ s.WF ∧
      trainTriples s s s [t] = [t] ∧
      c.train env [t] (.one s) s = .ok ⟨.weighted 0 0, some s.id2col⟩ ∧
      c.train env [t, t] (.one s) s = .ok ⟨.weighted 1 0, some s.id2col⟩ := by
  obtain ⟨s, wf, hm, rows, cols, _⟩ := exists_space (Mat.of 15 1 (fun i _ => if i = 1 then (1 : ℝ) else 0)) (List.range 15)
    List.nodup_range (by simp) none (by simp)
  have nc : s.mat.nc = 1 := by rw [hm]; rfl
  have nr : s.mat.nr = 15 := by rw [hm]; rfl
  have hvec : ∀ w, w < 15 → s.vecOf w 0 = if w = 1 then 1 else 0 := by
    intro w hw
    unfold Space.vecOf
    rw [hm, rows]
    have h2 : (List.range 15).idxOf w = w := by
      have := List.Nodup.idxOf_getElem (List.nodup_range (n := 15)) w (by simpa using hw)
      simpa using this
    rw [h2, Mat.of_get_lt hw (by omega)]
  set d1 : List (Triple ℕ) := [(1, 0, 1)] with hd1
  set d2 : List (Triple ℕ) := [(1, 0, 1), (1, 0, 1)] with hd2
  have t1 : trainTriples s s s d1 = d1 := by unfold trainTriples; rw [rows]; rfl
  have t2 : trainTriples s s s d2 = d2 := by unfold trainTriples; rw [rows]; rfl
  have u1 : usedSamples s d1 = [] := by unfold usedSamples; rw [nr]; simp [hd1]
  have u2 : usedSamples s d2 = d2 := by unfold usedSamples; rw [nr]; simp [hd2]
  have v0 := hvec 0 (by omega)
  have v1 := hvec 1 (by omega)
  simp only [if_true, show ¬ (0 = 1) by omega, if_false] at v0 v1
  have g1 : gram2 s s 1 (usedSamples s d1) = zero2 := by
    rw [u1]
    refine Mat.ext' rfl rfl (fun i j hi hj => ?_)
    have hi' : i < 2 := hi
    have hj' : j < 2 := hj
    unfold gram2 zero2
    rw [Mat.of_get_lt hi' hj', Mat.of_get_lt hi' hj']
    simp
  have g2 : gram2 s s 1 (usedSamples s d2) = corner2.smul 2 := by
    rw [u2]
    refine Mat.ext' rfl rfl (fun i j hi hj => ?_)
    have hi' : i < 2 := hi
    have hj' : j < 2 := hj
    rw [Mat.smul_get]
    unfold gram2 corner2
    rw [Mat.of_get_lt hi' hj', Mat.of_get_lt hi' hj']
    by_cases h1 : i = 0 <;> by_cases h2 : j = 0 <;> simp [hd2, dot, v0, v1, h1, h2]
    norm_num
  obtain ⟨P, hP, hpin⟩ := henv.pinv zero2
  obtain ⟨Q, hQ, hqin⟩ := henv.pinv (corner2.smul 2)
  refine ⟨⟨.weighted (1 / 2) (1 / 2), none⟩, s, (1, 0, 1), rfl, wf, t1, ?_, ?_⟩
  · have := trainWeighted_ok env (⟨.weighted (1 / 2) (1 / 2), none⟩ : Composer ℕ) _ _ rfl d1 (.one s) s s s 1
      ((extract_iff _ _ _).2 (Or.inl ⟨rfl, rfl⟩)) wf wf wf Nat.one_pos nc nc nc (by rw [t1]; simp [hd1]) P
      (by rw [t1, g1]; exact hP) hpin.nc
    rw [this]
    have hz := pinv_zero (Z := zero2) (by intro i j; simp [zero2, Mat.of_get]) hpin
    simp [hz]
  · have := trainWeighted_ok env (⟨.weighted (1 / 2) (1 / 2), none⟩ : Composer ℕ) _ _ rfl d2 (.one s) s s s 1
      ((extract_iff _ _ _).2 (Or.inl ⟨rfl, rfl⟩)) wf wf wf Nat.one_pos nc nc nc (by rw [t2]; simp [hd2]) Q
      (by rw [t2, g2]; exact hQ) hqin.nc
    rw [this, t2, u2]
    obtain rfl := hqin.unique (corner2_pinv.smul (two_ne_zero))
    simp [hd2, dotsOf, dot, v0, v1, Mat.smul_get, corner2_get]
    norm_num

/-- **C138** is false for a `LexicalFunction` with `MIN_SAMPLES` 2: with one training phrase `train` raises, with the same
phrase given twice it succeeds. -/
theorem C138_lexical_refuted (env : Env) (henv : env.Ideal) :
    ∃ (le : ℕ → ℕ → Bool) (m : LexFun ℕ) (s : Space ℕ) (t : Triple ℕ), m.learner = .lstsq false ∧ m.minSamples = 2 ∧ s.WF ∧
      m.train env le [t] s s = .error .valueError ∧ ∃ m', m.train env le [t, t] s s = .ok m' := by
  obtain ⟨s, wf, hm, rows, cols, hsh⟩ := exists_space (Mat.of 2 1 (fun _ _ => (1 : ℝ))) (List.range 2)
    List.nodup_range (by simp) none (by simp)
  have nc : s.mat.nc = 1 := by rw [hm]; rfl
  have t1 : ∀ f, lexSamples s s [(5, 0, 1)] f = if f = 5 then [(5, 0, 1)] else [] := by
    intro f
    unfold lexSamples
    rw [rows]
    by_cases h : f = 5
    · subst h; rfl
    · have : ¬ 5 = f := fun h' => h h'.symm
      simp [h, this]
  have t2 : lexSamples s s [(5, 0, 1), (5, 0, 1)] 5 = [(5, 0, 1), (5, 0, 1)] := by
    unfold lexSamples
    rw [rows]
    rfl
  have htr : ∀ a b c : ℕ, decide (a ≤ b) = true → decide (b ≤ c) = true → decide (a ≤ c) = true := by
    intro a b c; simp only [decide_eq_true_eq]; omega
  have hto : ∀ a b : ℕ, (decide (a ≤ b) || decide (b ≤ a)) = true := by
    intro a b; simp only [Bool.or_eq_true, decide_eq_true_eq]; omega
  have han : ∀ a b : ℕ, decide (a ≤ b) = true → decide (b ≤ a) = true → a = b := by
    intro a b; simp only [decide_eq_true_eq]; omega
  refine ⟨fun a b => decide (a ≤ b), ⟨.lstsq false, [], none, false, 2⟩, s, (5, 0, 1), rfl, rfl, wf, ?_, ?_⟩
  · refine C46_no_function env _ htr hto han _ _ s s wf wf (by simp) (by show (1 : ℤ) ≤ 2; omega) ?_
    rintro ⟨f, h⟩
    rw [t1] at h
    split at h <;> simp at h
  · refine ((C131_lexical_iff env henv _ htr hto han ⟨.lstsq false, [], none, false, 2⟩ (Or.inl ⟨_, rfl⟩) _ s s wf wf
      (by simp) (by omega) (by omega) (by rw [hsh, nc]; rfl) (by show (1 : ℤ) ≤ 2; omega)).1).2 ⟨5, ?_⟩
    rw [t2]
    simp

end
end Dissect
