import Verif.Props.RidgeZero
import Verif.Props.ComposeMore
import Verif.Props.Lexical

/-! # C152: multiplying the phrase vectors multiplies what is learned -/

namespace Dissect
open Finset
noncomputable section
variable {κ : Type} [DecidableEq κ]

theorem Mat.mul_smul' (A B : Mat ℝ) (k : ℝ) : A.mul (B.smul k) = (A.mul B).smul k := by
  refine Mat.ext' rfl rfl fun i j _ _ => ?_
  simp only [Mat.mul_get, Mat.smul_get, Finset.mul_sum]
  exact Finset.sum_congr rfl fun l _ => by ring

theorem norm_smul_sub {ty ty' : MTy} {A B : Mat ℝ} (hr : A.nr = B.nr) (hc : A.nc = B.nc) (k : ℝ) :
    (⟨ty', (A.smul k).sub (B.smul k)⟩ : TMat ℝ).norm = |k| * (⟨ty, A.sub B⟩ : TMat ℝ).norm := by
  unfold TMat.norm
  rw [← Real.sqrt_sq_eq_abs, ← Real.sqrt_mul (sq_nonneg k), Finset.mul_sum]
  congr 1
  refine Finset.sum_congr rfl fun i _ => ?_
  rw [Finset.mul_sum]
  refine Finset.sum_congr rfl fun j _ => ?_
  show ((A.smul k).sub (B.smul k)).get i j ^ 2 = k ^ 2 * (A.sub B).get i j ^ 2
  rw [Mat.sub_get (A := A.smul k) (B := B.smul k) hr hc, Mat.sub_get hr hc, Mat.smul_get, Mat.smul_get]
  ring

theorem ridge_scale {env : Env} (henv : env.Ideal) (ty ty' : MTy) {A B : Mat ℝ} (lam : ℝ) (ic : Bool) (hr : A.nr = B.nr)
    (h1 : 0 < A.nr) (h2 : 0 < A.nc) (h3 : 0 < B.nc) (k : ℝ) :
    ∃ X tr err, ridgeRegression env ⟨ty, A⟩ ⟨ty, B⟩ lam ic = .ok (⟨ty, X⟩, tr, err) ∧
      ridgeRegression env ⟨ty', A⟩ ⟨ty', B.smul k⟩ lam ic = .ok (⟨ty', X.smul k⟩, tr, |k| * err) ∧
      X.nr = numCoef A ic ∧ X.nc = B.nc := by
  obtain ⟨P, hP, hpin⟩ := henv.pinv (ridgeGram A lam ic)
  refine ⟨_, _, _, ridgeRegression_ok env ⟨ty, A⟩ ⟨ty, B⟩ lam ic rfl hr h1 h2 h3 P hP hpin.nr hpin.nc, ?_, hpin.nr, rfl⟩
  rw [ridgeRegression_ok env ⟨ty', A⟩ ⟨ty', B.smul k⟩ lam ic rfl hr h1 h2 h3 P hP hpin.nr hpin.nc]
  simp only
  rw [Mat.mul_smul', Mat.mul_smul',
    norm_smul_sub (ty := ty) (A := (design A ic).mul ((P.mul (design A ic).transpose).mul B)) hr rfl]

theorem firstMin_unique {score : ℝ → Option ℝ} {l : List ℝ} {p q : ℝ} (hp : FirstMin score l p) (hq : FirstMin score l q) :
    p = q := by
  rcases hp with ⟨pre, post, g, e1, e2, e3, e4⟩ | ⟨e1, rfl⟩
  · rcases hq with ⟨pre', post', g', d1, d2, d3, d4⟩ | ⟨d1, _⟩
    · rw [e1] at d1
      rcases List.append_eq_append_iff.1 d1 with ⟨z, z1, z2⟩ | ⟨z, z1, z2⟩
      · cases z with
        | nil => simp only [List.nil_append, List.cons.injEq] at z2; exact z2.1
        | cons x z =>
          simp only [List.cons_append, List.cons.injEq] at z2
          obtain ⟨rfl, z2⟩ := z2
          have h1 := d3 p (by rw [z1]; simp) g e2
          have h2 := e4 q (by rw [z2]; simp) g' d2
          linarith
      · cases z with
        | nil => simp only [List.nil_append, List.cons.injEq] at z2; exact z2.1.symm
        | cons x z =>
          simp only [List.cons_append, List.cons.injEq] at z2
          obtain ⟨rfl, z2⟩ := z2
          have h1 := e3 q (by rw [z1]; simp) g' d2
          have h2 := d4 p (by rw [z2]; simp) g e2
          linarith
    · rw [d1 p (by rw [e1]; simp)] at e2; cases e2
  · rcases hq with ⟨pre', post', g', d1, d2, d3, d4⟩ | ⟨d1, rfl⟩
    · rw [e1 q (by rw [d1]; simp)] at d2; cases d2
    · rfl

theorem firstMin_scale {score score' : ℝ → Option ℝ} {c : ℝ} (hc : 0 < c) (hs : ∀ q, score' q = (score q).map (c * ·)) {l : List ℝ}
    {p : ℝ} (h : FirstMin score l p) : FirstMin score' l p := by
  rcases h with ⟨pre, post, g, e1, e2, e3, e4⟩ | ⟨e1, e2⟩
  · refine Or.inl ⟨pre, post, c * g, e1, by rw [hs, e2]; rfl, fun q hq h hh => ?_, fun q hq h hh => ?_⟩
    · rw [hs] at hh
      obtain ⟨h0, k1, rfl⟩ := Option.map_eq_some_iff.1 hh
      exact mul_lt_mul_of_pos_left (e3 q hq h0 k1) hc
    · rw [hs] at hh
      obtain ⟨h0, k1, rfl⟩ := Option.map_eq_some_iff.1 hh
      exact mul_le_mul_of_nonneg_left (e4 q hq h0 k1) hc.le
  · exact Or.inr ⟨fun q hq => by rw [hs, e1 q hq]; rfl, e2⟩

theorem sqResid_smul {A B Y : Mat ℝ} (k : ℝ) : sqResid A (B.smul k) (Y.smul k) false = k ^ 2 * sqResid A B Y false := by
  unfold sqResid
  rw [Finset.mul_sum]
  refine Finset.sum_congr rfl fun i _ => ?_
  rw [Finset.mul_sum]
  refine Finset.sum_congr rfl fun j _ => ?_
  have hp : predict A (Y.smul k) false i j = k * predict A Y false i j := by
    unfold predict
    simp only [Bool.false_eq_true, if_false, add_zero, Mat.smul_get, Finset.mul_sum]
    exact Finset.sum_congr rfl fun l _ => by ring
  rw [hp, Mat.smul_get]
  ring

theorem frobSq_smul (Y : Mat ℝ) (k : ℝ) : frobSq (Y.smul k) = k ^ 2 * frobSq Y := by
  unfold frobSq
  rw [Finset.mul_sum]
  refine Finset.sum_congr rfl fun i _ => ?_
  rw [Finset.mul_sum]
  refine Finset.sum_congr rfl fun j _ => ?_
  rw [Mat.smul_get]; ring

theorem minNorm_smul {A B X : Mat ℝ} {k : ℝ} (hk : k ≠ 0) (h : IsMinNormLstsq A B X) : IsMinNormLstsq A (B.smul k) (X.smul k) := by
  have hk2 : 0 < k ^ 2 := by positivity
  have hY : ∀ Y : Mat ℝ, Y = (Y.smul k⁻¹).smul k := by
    intro Y
    refine Mat.ext' rfl rfl fun i j _ _ => ?_
    simp only [Mat.smul_get]
    field_simp
  refine ⟨⟨h.solves.nr, h.solves.nc, fun Y => ?_⟩, fun Y e1 e2 e3 => ?_⟩
  · rw [hY Y, sqResid_smul, sqResid_smul]
    exact mul_le_mul_of_nonneg_left (h.solves.min _) hk2.le
  · rw [hY Y, sqResid_smul, sqResid_smul] at e3
    rw [hY Y, frobSq_smul, frobSq_smul]
    exact mul_le_mul_of_nonneg_left (h.shortest _ e1 e2 (le_of_mul_le_mul_left e3 hk2)) hk2.le

/-- **C152** every constructed learner, on every training problem: when the targets are multiplied by `k ≠ 0`, the learned
coefficients are multiplied by `k`. Cross validation chooses the same parameter. The classes of the matrices do not matter. -/
theorem C152_learner (env : Env) (henv : env.Ideal) (l : Learner) (hl : l.Built) (ty ty' : MTy) (A B : Mat ℝ) (hr : A.nr = B.nr)
    (h1 : 0 < A.nr) (h2 : 0 < A.nc) (h3 : 0 < B.nc) (k : ℝ) (hk : k ≠ 0) :
    ∃ X : Mat ℝ, l.train env ⟨ty, A⟩ ⟨ty, B⟩ = .ok ⟨ty, X⟩ ∧ l.train env ⟨ty', A⟩ ⟨ty', B.smul k⟩ = .ok ⟨ty', X.smul k⟩ ∧
      X.nr = numCoef A l.hasIntercept ∧ X.nc = B.nc := by
  cases l with
  | lstsq ic =>
    obtain ⟨X, e1, m1⟩ := lstsq_result henv ⟨ty, A⟩ ⟨ty, B⟩ ic rfl hr h1 h2 h3
    obtain ⟨X', e2, m2⟩ := lstsq_result henv ⟨ty', A⟩ ⟨ty', B.smul k⟩ ic rfl hr h1 h2 h3
    obtain rfl := minNorm_unique m2 (minNorm_smul hk m1)
    exact ⟨X, e1, e2, m1.solves.nr, m1.solves.nc⟩
  | ridge ic cv rng par =>
    cases cv with
    | false =>
      obtain h | ⟨p, rfl⟩ := hl.ridge
      · cases h
      obtain ⟨X, tr, err, e1, e2, e3, e4⟩ := ridge_scale henv ty ty' p ic hr h1 h2 h3 k
      exact ⟨X, by simp only [Learner.train, e1, ok_bind, pure_eq_ok], by simp only [Learner.train, e2, ok_bind, pure_eq_ok], e3, e4⟩
    | true =>
      have hs := fun p => ridge_scale henv ty ty' p ic hr h1 h2 h3 k
      obtain ⟨Z, hZ⟩ := C53_succeeds env ⟨ty, A⟩ ⟨ty, B⟩ ic rng par (fun p _ => by
        obtain ⟨X, tr, err, e1, _⟩ := hs p; exact ⟨_, e1⟩)
      obtain ⟨Z', hZ'⟩ := C53_succeeds env ⟨ty', A⟩ ⟨ty', B.smul k⟩ ic rng par (fun p _ => by
        obtain ⟨X, tr, err, _, e1, _⟩ := hs p; exact ⟨_, e1⟩)
      obtain ⟨p, tr, err, m1, e1⟩ := C53_first_minimiser _ _ _ _ _ _ _ hZ
      obtain ⟨p', tr', err', m2, e2⟩ := C53_first_minimiser _ _ _ _ _ _ _ hZ'
      have hsc : ∀ q, ridgeScore env ⟨ty', A⟩ ⟨ty', B.smul k⟩ ic q =
          (ridgeScore env ⟨ty, A⟩ ⟨ty, B⟩ ic q).map (k ^ 2 * ·) := by
        intro q
        obtain ⟨X, tr, err, e1, e2, _⟩ := hs q
        unfold ridgeScore
        rw [e1, e2]
        simp only
        unfold gcvScore
        show (if (1 - tr / (A.nr : ℝ)) ^ 2 * (A.nr : ℝ) = 0 then none else _) = Option.map _
          (if (1 - tr / (A.nr : ℝ)) ^ 2 * (A.nr : ℝ) = 0 then none else _)
        split
        · rfl
        · rw [Option.map_some, mul_pow, sq_abs]
          congr 1
          exact mul_div_assoc _ _ _
      obtain rfl := firstMin_unique m2 (firstMin_scale (by positivity) hsc m1)
      obtain ⟨X, tr0, err0, d1, d2, d3, d4⟩ := hs p'
      rw [d1] at e1
      rw [d2] at e2
      have f1 := congrArg Prod.fst (ok_inj e1)
      have f2 := congrArg Prod.fst (ok_inj e2)
      exact ⟨X, by rw [hZ]; exact congrArg _ f1.symm, by rw [hZ']; exact congrArg _ f2.symm, d3, d4⟩

/-- `p'` is `p` with every vector multiplied by `k`. -/
structure TimesSpace (k : ℝ) (p p' : Space κ) : Prop where
  rows : p'.id2row = p.id2row
  width : p'.mat.nc = p.mat.nc
  vecs : ∀ w ∈ p.id2row, ∀ j < p.mat.nc, p'.vecOf w j = k * p.vecOf w j

theorem TimesSpace.triples {k : ℝ} {p p' : Space κ} (h : TimesSpace k p p') (s1 s2 : Space κ) (data : List (Triple κ)) :
    trainTriples s1 s2 p' data = trainTriples s1 s2 p data := by
  unfold trainTriples; rw [h.rows]

theorem TimesSpace.lex {k : ℝ} {p p' : Space κ} (h : TimesSpace k p p') (a : Space κ) (data : List (Triple κ)) (f : κ) :
    lexSamples a p' data f = lexSamples a p data f := by
  unfold lexSamples; rw [h.rows]

theorem TimesSpace.phraseRows {k : ℝ} {p p' : Space κ} (h : TimesSpace k p p') {v : List (Triple κ)} (hv : ∀ t ∈ v, t.2.2 ∈ p.id2row) :
    phraseRows p' v = (phraseRows p v).smul k := by
  refine Mat.ext' rfl h.width fun i j hi hj => ?_
  have hi' : i < v.length := hi
  have hj' : j < p'.mat.nc := hj
  rw [Mat.smul_get]
  unfold Dissect.phraseRows
  rw [Mat.of_get_lt hi' hj', Mat.of_get_lt hi' (by rw [← h.width]; exact hj'), List.getElem?_eq_getElem hi']
  exact h.vecs _ (hv _ (List.getElem_mem hi')) j (by rw [← h.width]; exact hj')

theorem TimesSpace.dot {k : ℝ} {p p' : Space κ} (h : TimesSpace k p p') {w : κ} (hw : w ∈ p.id2row) (x : ℕ → ℝ) :
    dot p.mat.nc x (p'.vecOf w) = k * dot p.mat.nc x (p.vecOf w) := by
  unfold Dissect.dot
  rw [Finset.mul_sum]
  refine Finset.sum_congr rfl fun j hj => ?_
  rw [h.vecs w hw j (Finset.mem_range.1 hj)]
  ring

theorem sum_map_times {α : Type} {k : ℝ} {f g : α → ℝ} : ∀ (l : List α), (∀ t ∈ l, g t = k * f t) →
    (l.map g).sum = k * (l.map f).sum := by
  intro l
  induction l with
  | nil => intro _; simp
  | cons a l ih =>
    intro h
    rw [List.map_cons, List.map_cons, List.sum_cons, List.sum_cons, ih (fun t ht => h t (List.mem_cons_of_mem _ ht)),
      h a (by simp), mul_add]

/-- **C152** `WeightedAdditive`: both weights are multiplied by `k`. -/
theorem C152_weighted (env : Env) (henv : env.Ideal) (c : Composer κ) (a0 b0 : ℝ) (hc : c.model = .weighted a0 b0)
    (data : List (Triple κ)) (args : ArgSpace κ) (s1 s2 p p' : Space κ) (n : ℕ) (k : ℝ) (hs : TimesSpace k p p')
    (hx : args.extract = .ok (s1, s2)) (h1 : s1.WF) (h2 : s2.WF) (hp : p.WF) (hp' : p'.WF) (hn : 0 < n)
    (n1 : s1.mat.nc = n) (n2 : s2.mat.nc = n) (n3 : p.mat.nc = n) (hv : trainTriples s1 s2 p data ≠ []) :
    ∃ a b, c.train env data args p = .ok ⟨.weighted a b, some p.id2col⟩ ∧
      c.train env data args p' = .ok ⟨.weighted (k * a) (k * b), some p'.id2col⟩ := by
  have hnr : p'.mat.nr = p.mat.nr := by rw [hp'.nrows, hp.nrows, hs.rows]
  have hu : usedSamples p' (trainTriples s1 s2 p' data) = usedSamples p (trainTriples s1 s2 p data) := by
    unfold usedSamples; rw [hs.triples, hnr]
  obtain ⟨P, hP, hpin⟩ := henv.pinv (gram2 s1 s2 n (usedSamples p (trainTriples s1 s2 p data)))
  have e1 := trainWeighted_ok env c a0 b0 hc data args s1 s2 p n hx h1 h2 hp hn n1 n2 n3 hv P hP hpin.nc
  have e2 := trainWeighted_ok env c a0 b0 hc data args s1 s2 p' n hx h1 h2 hp' hn n1 n2 (hs.width.trans n3)
    (by rw [hs.triples]; exact hv) P (by rw [hu]; exact hP) hpin.nc
  simp only at e1 e2
  rw [hu] at e2
  refine ⟨_, _, e1, ?_⟩
  have hmem : ∀ t ∈ usedSamples p (trainTriples s1 s2 p data), t.2.2 ∈ p.id2row := fun t ht =>
    (trainTriples_mem (List.mem_of_mem_take ht)).2.2
  have hd1 : (dotsOf s1 s2 p' n (usedSamples p (trainTriples s1 s2 p data))).d1p =
      k * (dotsOf s1 s2 p n (usedSamples p (trainTriples s1 s2 p data))).d1p :=
    sum_map_times _ fun t ht => by rw [← n3]; exact hs.dot (hmem t ht) _
  have hd2 : (dotsOf s1 s2 p' n (usedSamples p (trainTriples s1 s2 p data))).d2p =
      k * (dotsOf s1 s2 p n (usedSamples p (trainTriples s1 s2 p data))).d2p :=
    sum_map_times _ fun t ht => by rw [← n3]; exact hs.dot (hmem t ht) _
  rw [e2, hd1, hd2]
  congr 3 <;> ring

theorem predictVec_smul (n : ℕ) (X : Mat ℝ) (k : ℝ) (ic : Bool) (x : ℕ → ℝ) (j : ℕ) :
    predictVec n (X.smul k).get ic x j = k * predictVec n X.get ic x j := by
  unfold predictVec
  rw [mul_add, Finset.mul_sum]
  congr 1
  · exact Finset.sum_congr rfl fun i _ => by rw [Mat.smul_get]; ring
  · split
    · rw [Mat.smul_get]
    · rw [mul_zero]

/-- **C152** `FullAdditive`, with every constructed learner: both trainings succeed, and every composed vector of the second
model is `k` times that of the first. -/
theorem C152_full_additive (env : Env) (henv : env.Ideal) (c : Composer κ) (at0 bt0 : Option (TMat ℝ)) (i0 : Bool)
    (l : Learner) (hl : l.Built) (hc : c.model = .fullAdditive at0 bt0 i0 (some l)) (data : List (Triple κ))
    (args : ArgSpace κ) (s1 s2 p p' : Space κ) (k : ℝ) (hk : k ≠ 0) (hs : TimesSpace k p p')
    (hx : args.extract = .ok (s1, s2)) (h1 : s1.WF) (h2 : s2.WF) (hp : p.WF) (hp' : p'.WF)
    (n1 : 0 < s1.mat.nc) (n2 : 0 < s2.mat.nc) (n3 : 0 < p.mat.nc) (hv : trainTriples s1 s2 p data ≠ []) :
    ∃ c1 c2, c.train env data args p = .ok c1 ∧ c.train env data args p' = .ok c2 ∧
      ∀ (args' : ArgSpace κ) (t1 t2 : Space κ) (data' : List (Triple κ)), args'.extract = .ok (t1, t2) →
        t1.WF → t2.WF → t1.mat.nc = s1.mat.nc → t2.mat.nc = s2.mat.nc → knownTriples t1 t2 data' ≠ [] →
        ((knownTriples t1 t2 data').map (·.2.2)).Nodup →
        ∃ r r', (c1.compose data' args').2 = .ok r ∧ (c2.compose data' args').2 = .ok r' ∧
          r.id2row = (knownTriples t1 t2 data').map (·.2.2) ∧ TimesSpace k r r' := by
  obtain ⟨ty, H⟩ := C44_full_additive env c at0 bt0 i0 l hc data args s1 s2 p hx h1 h2 hp n1 n2 n3 hv
  obtain ⟨ty', H'⟩ := C44_full_additive env c at0 bt0 i0 l hc data args s1 s2 p' hx h1 h2 hp' n1 n2 (by rw [hs.width]; exact n3)
    (by rw [hs.triples]; exact hv)
  rw [hs.triples, hs.phraseRows (fun t ht => (trainTriples_mem ht).2.2)] at H'
  have hpos : 0 < (trainTriples s1 s2 p data).length := List.length_pos_iff.2 hv
  obtain ⟨X, e1, e2, e3, e4⟩ := C152_learner env henv l hl ty ty' (pairRows s1 s2 (trainTriples s1 s2 p data))
    (phraseRows p (trainTriples s1 s2 p data)) rfl hpos (show 0 < s1.mat.nc + s2.mat.nc by omega) n3 k hk
  obtain ⟨c1, g1, _, _, g4⟩ := H ⟨ty, X⟩ e1 e3 e4
  obtain ⟨c2, g1', _, _, g4'⟩ := H' ⟨ty', X.smul k⟩ e2 e3 (e4.trans hs.width.symm)
  refine ⟨c1, c2, g1, g1', fun args' t1 t2 data' hx' w1 w2 m1 m2 hne hnd => ?_⟩
  obtain ⟨r, r1, r2, r3, _, r5, r6⟩ := g4 args' t1 t2 data' hx' w1 w2 m1 m2 hne hnd
  obtain ⟨r', r1', r2', r3', _, r5', r6'⟩ := g4' args' t1 t2 data' hx' w1 w2 m1 m2 hne hnd
  refine ⟨r, r', r1, r1', r3, r3'.trans r3.symm, by rw [r5, r5', hs.width], fun w hw j hj => ?_⟩
  rw [r3] at hw
  obtain ⟨⟨a, b, ph⟩, ht, rfl⟩ := List.mem_map.1 hw
  have hidx := idxOf_phrase hnd ht
  rw [r5] at hj
  unfold Space.vecOf
  rw [r3, r3', r6 _ _ _ _ hidx j hj, r6' _ _ _ _ hidx j (by rw [hs.width]; exact hj)]
  exact predictVec_smul _ _ _ _ _ _

/-- **C152** `LexicalFunction`, with every constructed learner. -/
theorem C152_lexical (env : Env) (henv : env.Ideal) (le : κ → κ → Bool)
    (htrans : ∀ a b c, le a b = true → le b c = true → le a c = true) (htotal : ∀ a b, (le a b || le b a) = true)
    (hanti : ∀ a b, le a b = true → le b a = true → a = b) (m : LexFun κ) (hl : m.learner.Built)
    (data : List (Triple κ)) (arg p p' : Space κ) (k : ℝ) (hk : k ≠ 0) (hs : TimesSpace k p p')
    (ha : arg.WF) (hp : p.WF) (hp' : p'.WF) (na : 0 < arg.mat.nc) (np : 0 < p.mat.nc) (hsh : arg.elemShape = [arg.mat.nc])
    (hpsh : p.elemShape ≠ []) (hpsh' : p'.elemShape ≠ []) (hms : 1 ≤ m.minSamples)
    (test : List (Triple κ)) (arg' : Space κ) (ha' : arg'.WF) (hn' : arg'.mat.nc = arg.mat.nc)
    (known : List (Triple κ))
    (hknown : known = test.filter (fun t => decide
      (m.minSamples ≤ ((lexSamples arg p data t.1).length : ℤ) ∧ t.2.1 ∈ arg'.id2row)))
    (hne : known ≠ []) (hnd : (known.map (·.2.2)).Nodup) :
    ∃ m1 m2 r r', m.train env le data arg p = .ok m1 ∧ m.train env le data arg p' = .ok m2 ∧
      m1.compose test arg' = .ok r ∧ m2.compose test arg' = .ok r' ∧ r.id2row = known.map (·.2.2) ∧ TimesSpace k r r' := by
  have hex : ∃ f, m.minSamples ≤ ((lexSamples arg p data f).length : ℤ) := by
    obtain ⟨t, ht⟩ := List.exists_mem_of_ne_nil _ hne
    rw [hknown, List.mem_filter] at ht
    exact ⟨t.1, (of_decide_eq_true ht.2).1⟩
  have hX : ∀ f, ∃ X : Mat ℝ, m.minSamples ≤ ((lexSamples arg p data f).length : ℤ) →
      m.learner.train env ⟨lexTy arg p, argRows arg (lexSamples arg p data f)⟩
        ⟨lexTy arg p, phraseRows p (lexSamples arg p data f)⟩ = .ok ⟨lexTy arg p, X⟩ ∧
      m.learner.train env ⟨lexTy arg p', argRows arg (lexSamples arg p data f)⟩
        ⟨lexTy arg p', (phraseRows p (lexSamples arg p data f)).smul k⟩ = .ok ⟨lexTy arg p', X.smul k⟩ ∧
      X.nr = (if m.learner.hasIntercept then arg.mat.nc + 1 else arg.mat.nc) ∧ X.nc = p.mat.nc := by
    intro f
    by_cases hf : m.minSamples ≤ ((lexSamples arg p data f).length : ℤ)
    · have hpos : 0 < (lexSamples arg p data f).length := by omega
      obtain ⟨X, e1, e2, e3, e4⟩ := C152_learner env henv m.learner hl (lexTy arg p) (lexTy arg p')
        (argRows arg (lexSamples arg p data f)) (phraseRows p (lexSamples arg p data f)) rfl hpos na np k hk
      exact ⟨X, fun _ => ⟨e1, e2, e3, e4⟩⟩
    · exact ⟨Mat.identity 0, fun h => absurd h hf⟩
  choose X hX using hX
  obtain ⟨m1, r, a1, a2, a3, a4, _, a6, a7⟩ := C46_train_compose env le htrans htotal hanti m data arg p ha hp na np hsh hpsh hms hex
    (fun f => ⟨lexTy arg p, X f⟩) (fun f hf => ⟨(hX f hf).1, rfl, (hX f hf).2.2.1, (hX f hf).2.2.2⟩) test arg' ha' hn' known hknown hne hnd
  have hph : ∀ f, phraseRows p' (lexSamples arg p data f) = (phraseRows p (lexSamples arg p data f)).smul k := by
    intro f
    refine hs.phraseRows fun t ht => ?_
    unfold lexSamples at ht
    exact (of_decide_eq_true (List.mem_filter.1 ht).2).2.2
  obtain ⟨m2, r', b1, b2, b3, b4, _, b6, b7⟩ := C46_train_compose env le htrans htotal hanti m data arg p' ha hp' na
    (by rw [hs.width]; exact np) hsh hpsh' hms (by simpa only [hs.lex] using hex)
    (fun f => ⟨lexTy arg p', (X f).smul k⟩)
    (fun f hf => by
      rw [hs.lex] at hf ⊢
      rw [hph]
      exact ⟨(hX f hf).2.1, rfl, (hX f hf).2.2.1, (hX f hf).2.2.2.trans hs.width.symm⟩) test arg' ha' hn' known
    (by simp only [hs.lex]; exact hknown) hne hnd
  have hw : r.mat.nc = p.mat.nc := by rw [← a3.shape, a6, hp.shape]
  have hw' : r'.mat.nc = p.mat.nc := by rw [← b3.shape, b6, hp'.shape, hs.width]
  refine ⟨m1, m2, r, r', a1, b1, a2, b2, a4, b4.trans a4.symm, hw'.trans hw.symm, fun w hwm j hj => ?_⟩
  rw [a4] at hwm
  obtain ⟨⟨f, x, ph⟩, ht, rfl⟩ := List.mem_map.1 hwm
  have hidx := idxOf_phrase hnd ht
  rw [hw] at hj
  unfold Space.vecOf
  rw [a4, b4, a7 _ _ _ _ hidx j hj, b7 _ _ _ _ hidx j (by rw [hs.width]; exact hj)]
  exact predictVec_smul _ _ _ _ _ _

end
end Dissect
