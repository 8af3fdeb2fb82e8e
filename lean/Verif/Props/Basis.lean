import Verif.Lemmas.Basis
import Verif.Props.TrainOrder
import Verif.Props.SvdBest
import Verif.Props.ColumnOrder

/-! # C153: nothing depends on the orthonormal basis; C154: the order of the two constituents -/

namespace Dissect
open Finset
noncomputable section
variable {κ : Type} [DecidableEq κ]

theorem TurnedSpace.dot {Q : Mat ℝ} {s s' t t' : Space κ} {n : ℕ} (hQ : IsOrtho n Q) (h : TurnedSpace Q s s') (g : TurnedSpace Q t t')
    (n1 : s.mat.nc = n) (n2 : t.mat.nc = n) {a b : κ} (ha : a ∈ s.id2row) (hb : b ∈ t.id2row) :
    dot n (s'.vecOf a) (t'.vecOf b) = dot n (s.vecOf a) (t.vecOf b) := by
  rw [← hQ.dot (s.vecOf a) (t.vecOf b)]
  unfold Dissect.dot
  refine Finset.sum_congr rfl fun j hj => ?_
  have hj' := Finset.mem_range.1 hj
  rw [h.vecs a ha j (by omega), g.vecs b hb j (by omega), n1, n2]

/-- **C153** the similarity of two words of spaces given in another orthonormal basis: unchanged for every measure but Lin's. -/
theorem C153_similarity (Q : Mat ℝ) (s s' t t' : Space κ) (hQ : IsOrtho s.mat.nc Q) (hs : TurnedSpace Q s s') (ht : TurnedSpace Q t t')
    (h1 : s.WF) (h1' : s'.WF) (h2 : t.WF) (h2' : t'.WF) (hc : 0 < s.mat.nc) (hcc : s.mat.nc = t.mat.nc)
    (sim : Sim) (hsim : sim ≠ .lin) (w1 w2 : κ) :
    s'.getSim w1 w2 sim (some t') = s.getSim w1 w2 sim (some t) ∧ s'.getSim w1 w2 sim none = s.getSim w1 w2 sim none := by
  have key : ∀ (t t' : Space κ) (o o' : Option (Space κ)), t = o.getD s → t' = o'.getD s' → TurnedSpace Q t t' → t.WF → t'.WF →
      s.mat.nc = t.mat.nc → s'.getSim w1 w2 sim o' = s.getSim w1 w2 sim o := by
    intro t t' o o' e e' ht h2 h2' hcc
    have hc' : 0 < s'.mat.nc := by rw [hs.width]; exact hc
    have hcc' : s'.mat.nc = t'.mat.nc := by rw [hs.width, ht.width, hcc]
    by_cases hw1 : w1 ∈ s.id2row
    · by_cases hw2 : w2 ∈ t.id2row
      · rw [Space.getSim_words2 (target := t) (space2 := o) e h1 h2 hc hcc (Space.hasWord_idxOf hw1) (Space.hasWord_idxOf hw2),
          Space.getSim_words2 (target := t') (space2 := o') e' h1' h2' hc' hcc'
            (Space.hasWord_idxOf (by rw [hs.rows]; exact hw1)) (Space.hasWord_idxOf (by rw [ht.rows]; exact hw2)), hs.width]
        refine congrArg _ (simVal_of_gram hsim ?_ ?_ ?_)
        · exact TurnedSpace.dot hQ hs hs rfl rfl hw1 hw1
        · exact TurnedSpace.dot hQ ht ht hcc.symm hcc.symm hw2 hw2
        · exact TurnedSpace.dot hQ hs ht rfl hcc.symm hw1 hw2
      · rw [C08_missing s t o sim w1 w2 e h1 h2 hc (Or.inr hw2),
          C08_missing s' t' o' sim w1 w2 e' h1' h2' hc' (Or.inr (by rw [ht.rows]; exact hw2))]
    · rw [C08_missing s t o sim w1 w2 e h1 h2 hc (Or.inl hw1),
        C08_missing s' t' o' sim w1 w2 e' h1' h2' hc' (Or.inl (by rw [hs.rows]; exact hw1))]
  exact ⟨key t t' (some t) (some t') rfl rfl ht h2 h2' hcc, key s s' none none rfl rfl hs h1 h1' rfl⟩

/-- **C153** nor do the neighbours change. -/
theorem C153_neighbours (Q : Mat ℝ) (s s' t t' : Space κ) (hQ : IsOrtho s.mat.nc Q) (hs : TurnedSpace Q s s') (ht : TurnedSpace Q t t')
    (h1 : s.WF) (h1' : s'.WF) (h2 : t.WF) (h2' : t'.WF) (hc : 0 < s.mat.nc) (hcc : s.mat.nc = t.mat.nc)
    (sim : Sim) (hsim : sim ≠ .lin) (w : κ) (n : ℤ) (hr : t.id2row ≠ []) :
    s'.getNeighbours w n sim (some t') = s.getNeighbours w n sim (some t) := by
  by_cases hw : w ∈ s.id2row
  · have hpos : 0 < t.id2row.length := List.length_pos_iff.2 hr
    obtain ⟨res, sc, e1, e2, e3⟩ := C09_top_n s t (some t) sim w n rfl h1 h2 hc hcc hw hpos
    obtain ⟨res', sc', f1, f2, f3⟩ := C09_top_n s' t' (some t') sim w n rfl h1' h2' (by rw [hs.width]; exact hc)
      (by rw [hs.width, ht.width, hcc]) (by rw [hs.rows]; exact hw) (by rw [ht.rows]; exact hpos)
    rw [e1, f1]
    rw [ht.rows] at f2 f3
    rw [e3.unique (fun x hx => ?_) f3]
    have := (C153_similarity Q s s' t t' hQ hs ht h1 h1' h2 h2' hc hcc sim hsim w x).1
    rw [e2 x hx, f2 x hx] at this
    exact (ok_inj this).symm
  · rw [C09_unknown_word s (some t) sim w n h1 hw, C09_unknown_word s' (some t') sim w n h1' (by rw [hs.rows]; exact hw)]

/-- **C153** every constructed learner: train it on `A`, `B` and on the same samples with the inputs in the basis `Q` and the
targets in the basis `R`. Both trainings succeed, and the prediction for the input `x Q` is the first prediction for `x`, in the
basis `R`. -/
theorem C153_learner (env : Env) (henv : env.Ideal) (l : Learner) (hl : l.Built) (ty ty' : MTy) (A B Q R : Mat ℝ)
    (hQ : IsOrtho A.nc Q) (hR : IsOrtho B.nc R) (hr : A.nr = B.nr) (h1 : 0 < A.nr) (h2 : 0 < A.nc) (h3 : 0 < B.nc) :
    ∃ X X' : Mat ℝ, l.train env ⟨ty, A⟩ ⟨ty, B⟩ = .ok ⟨ty, X⟩ ∧ l.train env ⟨ty', A.mul Q⟩ ⟨ty', B.mul R⟩ = .ok ⟨ty', X'⟩ ∧
      X.nr = numCoef A l.hasIntercept ∧ X'.nr = X.nr ∧ X.nc = B.nc ∧ X'.nc = B.nc ∧
      ∀ (x : ℕ → ℝ) (j : ℕ), predictVec A.nc X'.get l.hasIntercept (turn A.nc Q x) j =
        turn B.nc R (predictVec A.nc X.get l.hasIntercept x) j := by
  obtain ⟨X, e1, e2, e3, e4⟩ := learner_turn henv hl ty ty' hQ hR rfl rfl hr h1 h2 h3
  refine ⟨X, _, e1, e2, e3, ?_, e4, hR.nc, fun x j => ?_⟩
  · rw [e3]; rfl
  · exact predictVec_turn hQ (by rw [e3]; rfl) e4 (fun _ _ => rfl) j

/-- The samples in the turned coordinates. -/
theorem rows_turn {α : Type} {n : ℕ} {Q M M' : Mat ℝ} (hQ : IsOrtho n Q) {v : List α} {f f' : α → ℕ → ℝ} (h1 : M.nr = v.length)
    (h2 : M'.nr = v.length) (h3 : M.nc = n) (h4 : M'.nc = n) (g1 : ∀ k t, v[k]? = some t → ∀ j < n, M.get k j = f t j)
    (g2 : ∀ k t, v[k]? = some t → ∀ j < n, M'.get k j = f' t j) (h : ∀ t ∈ v, ∀ j < n, f' t j = turn n Q (f t) j) : M' = M.mul Q := by
  refine Mat.ext' (h2.trans h1.symm) (h4.trans hQ.nc.symm) fun i j hi hj => ?_
  have hi' : i < v.length := by rw [← h2]; exact hi
  have hj' : j < n := by rw [← h4]; exact hj
  rw [g2 i _ (List.getElem?_eq_getElem hi') j hj', h _ (List.getElem_mem hi') j hj', Mat.mul_get, h3]
  unfold turn
  exact Finset.sum_congr rfl fun k hk => by rw [g1 i _ (List.getElem?_eq_getElem hi') k (Finset.mem_range.1 hk)]

theorem phraseRows_get {p : Space κ} {v : List (Triple κ)} (k : ℕ) (t : Triple κ) (h : v[k]? = some t) (j : ℕ) (hj : j < p.mat.nc) :
    (phraseRows p v).get k j = p.vecOf t.2.2 j := by
  unfold phraseRows
  rw [Mat.of_get_lt (List.getElem?_eq_some_iff.1 h).1 hj, h]

theorem argRows_get {p : Space κ} {v : List (Triple κ)} (k : ℕ) (t : Triple κ) (h : v[k]? = some t) (j : ℕ) (hj : j < p.mat.nc) :
    (argRows p v).get k j = p.vecOf t.2.1 j := by
  unfold argRows
  rw [Mat.of_get_lt (List.getElem?_eq_some_iff.1 h).1 hj, h]

theorem pairRows_get {s1 s2 : Space κ} {v : List (Triple κ)} (k : ℕ) (t : Triple κ) (h : v[k]? = some t) (j : ℕ)
    (hj : j < s1.mat.nc + s2.mat.nc) : (pairRows s1 s2 v).get k j = joinVec s1.mat.nc (s1.vecOf t.1) (s2.vecOf t.2.1) j := by
  unfold pairRows
  rw [Mat.of_get_lt (List.getElem?_eq_some_iff.1 h).1 hj, h]

theorem TurnedSpace.phraseRows {Q : Mat ℝ} {p p' : Space κ} (hQ : IsOrtho p.mat.nc Q) (h : TurnedSpace Q p p') {v : List (Triple κ)}
    (hv : ∀ t ∈ v, t.2.2 ∈ p.id2row) : phraseRows p' v = (phraseRows p v).mul Q :=
  rows_turn hQ (f := fun t => p.vecOf t.2.2) (f' := fun t => p'.vecOf t.2.2) rfl rfl rfl h.width
    (fun k t hk j hj => phraseRows_get k t hk j hj)
    (fun k t hk j hj => phraseRows_get k t hk j (by rw [h.width]; exact hj)) (fun t ht j hj => h.vecs _ (hv t ht) j hj)

theorem TurnedSpace.argRows {Q : Mat ℝ} {p p' : Space κ} (hQ : IsOrtho p.mat.nc Q) (h : TurnedSpace Q p p') {v : List (Triple κ)}
    (hv : ∀ t ∈ v, t.2.1 ∈ p.id2row) : argRows p' v = (argRows p v).mul Q :=
  rows_turn hQ (f := fun t => p.vecOf t.2.1) (f' := fun t => p'.vecOf t.2.1) rfl rfl rfl h.width
    (fun k t hk j hj => argRows_get k t hk j hj)
    (fun k t hk j hj => argRows_get k t hk j (by rw [h.width]; exact hj)) (fun t ht j hj => h.vecs _ (hv t ht) j hj)

/-- The change of basis of joined vectors. -/
def blockQ (n1 n2 : ℕ) (Q1 Q2 : Mat ℝ) : Mat ℝ := Mat.of (n1 + n2) (n1 + n2) (fun i j =>
  if i < n1 ∧ j < n1 then Q1.get i j else if n1 ≤ i ∧ n1 ≤ j then Q2.get (i - n1) (j - n1) else 0)

theorem blockQ_get {n1 n2 : ℕ} {Q1 Q2 : Mat ℝ} {i j : ℕ} (hi : i < n1 + n2) (hj : j < n1 + n2) : (blockQ n1 n2 Q1 Q2).get i j =
    if i < n1 ∧ j < n1 then Q1.get i j else if n1 ≤ i ∧ n1 ≤ j then Q2.get (i - n1) (j - n1) else 0 := Mat.of_get_lt hi hj

theorem turn_block {n1 n2 : ℕ} {Q1 Q2 : Mat ℝ} (u v : ℕ → ℝ) {j : ℕ} (hj : j < n1 + n2) :
    turn (n1 + n2) (blockQ n1 n2 Q1 Q2) (joinVec n1 u v) j = joinVec n1 (turn n1 Q1 u) (turn n2 Q2 v) j := by
  unfold turn
  rw [Finset.sum_range_add]
  have e1 : ∀ i ∈ range n1, joinVec n1 u v i * (blockQ n1 n2 Q1 Q2).get i j = if j < n1 then u i * Q1.get i j else 0 := by
    intro i hi
    have hi' := Finset.mem_range.1 hi
    rw [blockQ_get (by omega) hj]
    unfold joinVec
    rw [if_pos hi']
    by_cases hjn : j < n1
    · rw [if_pos ⟨hi', hjn⟩, if_pos hjn]
    · rw [if_neg (by omega), if_neg (by omega), if_neg hjn, mul_zero]
  have e2 : ∀ i ∈ range n2, joinVec n1 u v (n1 + i) * (blockQ n1 n2 Q1 Q2).get (n1 + i) j =
      if j < n1 then 0 else v i * Q2.get i (j - n1) := by
    intro i hi
    have hi' := Finset.mem_range.1 hi
    rw [blockQ_get (by omega) hj]
    unfold joinVec
    rw [if_neg (by omega), Nat.add_sub_cancel_left]
    by_cases hjn : j < n1
    · rw [if_neg (by omega), if_neg (by omega), if_pos hjn, mul_zero]
    · rw [if_neg (by omega), if_pos (by omega), if_neg hjn]
  rw [Finset.sum_congr rfl e1, Finset.sum_congr rfl e2]
  unfold joinVec
  by_cases hjn : j < n1
  · simp only [if_pos hjn, Finset.sum_const_zero, add_zero]
  · simp only [if_neg hjn, Finset.sum_const_zero, zero_add]

theorem IsOrtho.block {n1 n2 : ℕ} {Q1 Q2 : Mat ℝ} (h1 : IsOrtho n1 Q1) (h2 : IsOrtho n2 Q2) :
    IsOrtho (n1 + n2) (blockQ n1 n2 Q1 Q2) := by
  refine ⟨rfl, rfl, fun i hi j hj => ?_⟩
  unfold Dissect.dot
  rw [Finset.sum_range_add]
  have e1 : ∀ k ∈ range n1, (blockQ n1 n2 Q1 Q2).get i k * (blockQ n1 n2 Q1 Q2).get j k =
      if i < n1 ∧ j < n1 then Q1.get i k * Q1.get j k else 0 := by
    intro k hk
    have hk' := Finset.mem_range.1 hk
    rw [blockQ_get hi (by omega), blockQ_get hj (by omega)]
    by_cases hin : i < n1
    · by_cases hjn : j < n1
      · rw [if_pos ⟨hin, hk'⟩, if_pos ⟨hjn, hk'⟩, if_pos ⟨hin, hjn⟩]
      · rw [if_neg (c := j < n1 ∧ k < n1) (by omega), if_neg (c := n1 ≤ j ∧ n1 ≤ k) (by omega), mul_zero, if_neg (by omega)]
    · rw [if_neg (c := i < n1 ∧ k < n1) (by omega), if_neg (c := n1 ≤ i ∧ n1 ≤ k) (by omega), zero_mul, if_neg (by omega)]
  have e2 : ∀ k ∈ range n2, (blockQ n1 n2 Q1 Q2).get i (n1 + k) * (blockQ n1 n2 Q1 Q2).get j (n1 + k) =
      if n1 ≤ i ∧ n1 ≤ j then Q2.get (i - n1) k * Q2.get (j - n1) k else 0 := by
    intro k hk
    have hk' := Finset.mem_range.1 hk
    rw [blockQ_get hi (by omega), blockQ_get hj (by omega), if_neg (by omega), if_neg (c := j < n1 ∧ n1 + k < n1) (by omega),
      Nat.add_sub_cancel_left]
    by_cases hin : n1 ≤ i
    · by_cases hjn : n1 ≤ j
      · rw [if_pos (by omega), if_pos (by omega), if_pos ⟨hin, hjn⟩]
      · rw [if_neg (c := n1 ≤ j ∧ n1 ≤ n1 + k) (by omega), mul_zero, if_neg (by omega)]
    · rw [if_neg (c := n1 ≤ i ∧ n1 ≤ n1 + k) (by omega), zero_mul, if_neg (by omega)]
  rw [Finset.sum_congr rfl e1, Finset.sum_congr rfl e2]
  by_cases hin : i < n1
  · by_cases hjn : j < n1
    · have := h1.rows i hin j hjn
      unfold Dissect.dot at this
      simp only [hin, hjn, and_self, if_true, this, if_neg (show ¬ (n1 ≤ i ∧ n1 ≤ j) by omega), Finset.sum_const_zero, add_zero]
    · simp only [if_neg (show ¬ (i < n1 ∧ j < n1) by omega), if_neg (show ¬ (n1 ≤ i ∧ n1 ≤ j) by omega), Finset.sum_const_zero, add_zero]
      rw [if_neg (by omega)]
  · by_cases hjn : j < n1
    · simp only [if_neg (show ¬ (i < n1 ∧ j < n1) by omega), if_neg (show ¬ (n1 ≤ i ∧ n1 ≤ j) by omega), Finset.sum_const_zero, add_zero]
      rw [if_neg (by omega)]
    · have := h2.rows (i - n1) (by omega) (j - n1) (by omega)
      unfold Dissect.dot at this
      simp only [if_neg (show ¬ (i < n1 ∧ j < n1) by omega), if_pos (show n1 ≤ i ∧ n1 ≤ j by omega), this, Finset.sum_const_zero, zero_add]
      by_cases hij : i = j
      · simp [hij]
      · rw [if_neg hij, if_neg (by omega)]

theorem joinVec_congr {n1 n2 : ℕ} {u u' v v' : ℕ → ℝ} (hu : ∀ j < n1, u' j = u j) (hv : ∀ j < n2, v' j = v j) {j : ℕ} (hj : j < n1 + n2) :
    joinVec n1 u' v' j = joinVec n1 u v j := by
  unfold joinVec
  split
  · exact hu j (by omega)
  · exact hv _ (by omega)

theorem turned_triples {Q1 Q2 R : Mat ℝ} {s1 s1' s2 s2' p p' : Space κ} (h1 : TurnedSpace Q1 s1 s1') (h2 : TurnedSpace Q2 s2 s2')
    (hp : TurnedSpace R p p') (data : List (Triple κ)) : trainTriples s1' s2' p' data = trainTriples s1 s2 p data := by
  unfold trainTriples; rw [h1.rows, h2.rows, hp.rows]

theorem turned_known {Q1 Q2 : Mat ℝ} {s1 s1' s2 s2' : Space κ} (h1 : TurnedSpace Q1 s1 s1') (h2 : TurnedSpace Q2 s2 s2')
    (data : List (Triple κ)) : knownTriples s1' s2' data = knownTriples s1 s2 data := by
  unfold knownTriples; rw [h1.rows, h2.rows]

/-- **C153** `FullAdditive`: the two argument spaces and the phrase space may each be given in another orthonormal basis. Both
trainings succeed, and the vectors composed afterwards (from arguments in the new bases) are those of the first model in the new
basis of the phrase space. -/
theorem C153_full_additive (env : Env) (henv : env.Ideal) (c : Composer κ) (at0 bt0 : Option (TMat ℝ)) (i0 : Bool)
    (l : Learner) (hl : l.Built) (hc : c.model = .fullAdditive at0 bt0 i0 (some l)) (data : List (Triple κ))
    (args args' : ArgSpace κ) (s1 s1' s2 s2' p p' : Space κ) (Q1 Q2 R : Mat ℝ)
    (o1 : IsOrtho s1.mat.nc Q1) (o2 : IsOrtho s2.mat.nc Q2) (oR : IsOrtho p.mat.nc R)
    (t1 : TurnedSpace Q1 s1 s1') (t2 : TurnedSpace Q2 s2 s2') (tp : TurnedSpace R p p')
    (hx : args.extract = .ok (s1, s2)) (hx' : args'.extract = .ok (s1', s2'))
    (h1 : s1.WF) (h1' : s1'.WF) (h2 : s2.WF) (h2' : s2'.WF) (hp : p.WF) (hp' : p'.WF)
    (n1 : 0 < s1.mat.nc) (n2 : 0 < s2.mat.nc) (n3 : 0 < p.mat.nc) (hv : trainTriples s1 s2 p data ≠ []) :
    ∃ c1 c2, c.train env data args p = .ok c1 ∧ c.train env data args' p' = .ok c2 ∧
      ∀ (a a' : ArgSpace κ) (x x' y y' : Space κ) (test : List (Triple κ)), a.extract = .ok (x, y) → a'.extract = .ok (x', y') →
        x.WF → x'.WF → y.WF → y'.WF → x.mat.nc = s1.mat.nc → y.mat.nc = s2.mat.nc →
        TurnedSpace Q1 x x' → TurnedSpace Q2 y y' →
        knownTriples x y test ≠ [] → ((knownTriples x y test).map (·.2.2)).Nodup →
        ∃ r r', (c1.compose test a).2 = .ok r ∧ (c2.compose test a').2 = .ok r' ∧
          r.id2row = (knownTriples x y test).map (·.2.2) ∧ TurnedSpace R r r' := by
  obtain ⟨ty, H⟩ := C44_full_additive env c at0 bt0 i0 l hc data args s1 s2 p hx h1 h2 hp n1 n2 n3 hv
  obtain ⟨ty', H'⟩ := C44_full_additive env c at0 bt0 i0 l hc data args' s1' s2' p' hx' h1' h2' hp' (by rw [t1.width]; exact n1)
    (by rw [t2.width]; exact n2) (by rw [tp.width]; exact n3) (by rw [turned_triples t1 t2 tp]; exact hv)
  have oB := o1.block o2
  have hmem : ∀ t ∈ trainTriples s1 s2 p data, t.1 ∈ s1.id2row ∧ t.2.1 ∈ s2.id2row ∧ t.2.2 ∈ p.id2row := fun t ht => trainTriples_mem ht
  have hpair : pairRows s1' s2' (trainTriples s1 s2 p data) =
      (pairRows s1 s2 (trainTriples s1 s2 p data)).mul (blockQ s1.mat.nc s2.mat.nc Q1 Q2) := by
    refine rows_turn oB (f := fun t => joinVec s1.mat.nc (s1.vecOf t.1) (s2.vecOf t.2.1))
      (f' := fun t => joinVec s1.mat.nc (s1'.vecOf t.1) (s2'.vecOf t.2.1)) rfl rfl rfl
      (by show s1'.mat.nc + s2'.mat.nc = _; rw [t1.width, t2.width]) (fun k t hk j hj => pairRows_get k t hk j hj)
      (fun k t hk j hj => ?_) (fun t ht j hj => ?_)
    · rw [pairRows_get k t hk j (by rw [t1.width, t2.width]; exact hj), t1.width]
    · rw [turn_block _ _ hj]
      exact joinVec_congr (fun j hj => t1.vecs _ (hmem t ht).1 j hj) (fun j hj => t2.vecs _ (hmem t ht).2.1 j hj) hj
  rw [turned_triples t1 t2 tp, hpair, tp.phraseRows oR (fun t ht => (hmem t ht).2.2), t1.width, t2.width, tp.width] at H'
  have hpos : 0 < (trainTriples s1 s2 p data).length := List.length_pos_iff.2 hv
  obtain ⟨X, e1, e2, e3, e4⟩ := learner_turn henv hl ty ty' (A := pairRows s1 s2 (trainTriples s1 s2 p data))
    (B := phraseRows p (trainTriples s1 s2 p data)) oB oR rfl rfl rfl hpos (by omega) n3
  obtain ⟨c1, g1, _, _, g4⟩ := H ⟨ty, X⟩ e1 e3 e4
  obtain ⟨c2, g1', _, _, g4'⟩ := H' _ e2 rfl oR.nc
  refine ⟨c1, c2, g1, g1', fun a a' x x' y y' test ex ex' w1 w1' w2 w2' m1 m2 q1 q2 hne hnd => ?_⟩
  obtain ⟨r, r1, r2, r3, _, r5, r6⟩ := g4 a x y test ex w1 w2 m1 m2 hne hnd
  obtain ⟨r', r1', r2', r3', _, r5', r6'⟩ := g4' a' x' y' test ex' w1' w2' (by rw [q1.width, m1]) (by rw [q2.width, m2])
    (by rw [turned_known q1 q2]; exact hne) (by rw [turned_known q1 q2]; exact hnd)
  rw [turned_known q1 q2] at r3' r6'
  refine ⟨r, r', r1, r1', r3, r3'.trans r3.symm, by rw [r5, r5'], fun w hw j hj => ?_⟩
  rw [r3] at hw
  obtain ⟨⟨f, g, ph⟩, ht, rfl⟩ := List.mem_map.1 hw
  have hidx := idxOf_phrase hnd ht
  have hk := mem_known.1 ht
  rw [r5] at hj ⊢
  unfold Space.vecOf
  rw [r3, r3', r6' _ _ _ _ hidx j hj]
  rw [predictVec_turn (Q := blockQ s1.mat.nc s2.mat.nc Q1 Q2) (R := R) (X := X) (p := p.mat.nc) oB e3 e4
    (x := joinVec s1.mat.nc (x.vecOf f) (y.vecOf g)) (fun j hj => ?_) j]
  · unfold turn
    exact Finset.sum_congr rfl fun k hk => by rw [r6 _ _ _ _ hidx k (Finset.mem_range.1 hk)]
  · rw [turn_block _ _ hj]
    refine joinVec_congr (fun j hj => ?_) (fun j hj => ?_) hj
    · rw [q1.vecs _ hk.2.1 j (by omega), m1]
    · rw [q2.vecs _ hk.2.2 j (by omega), m2]

/-- **C153** `LexicalFunction`: the argument space and the phrase space may each be given in another orthonormal basis. -/
theorem C153_lexical (env : Env) (henv : env.Ideal) (le : κ → κ → Bool)
    (htrans : ∀ a b c, le a b = true → le b c = true → le a c = true) (htotal : ∀ a b, (le a b || le b a) = true)
    (hanti : ∀ a b, le a b = true → le b a = true → a = b) (m : LexFun κ) (hl : m.learner.Built)
    (data : List (Triple κ)) (arg arg' p p' : Space κ) (Q R : Mat ℝ) (oQ : IsOrtho arg.mat.nc Q) (oR : IsOrtho p.mat.nc R)
    (ta : TurnedSpace Q arg arg') (tp : TurnedSpace R p p')
    (ha : arg.WF) (ha' : arg'.WF) (hp : p.WF) (hp' : p'.WF) (na : 0 < arg.mat.nc) (np : 0 < p.mat.nc)
    (hsh : arg.elemShape = [arg.mat.nc]) (hsh' : arg'.elemShape = [arg'.mat.nc])
    (hpsh : p.elemShape ≠ []) (hpsh' : p'.elemShape ≠ []) (hms : 1 ≤ m.minSamples)
    (test : List (Triple κ)) (x x' : Space κ) (hx : x.WF) (hx' : x'.WF) (hn : x.mat.nc = arg.mat.nc) (tx : TurnedSpace Q x x')
    (known : List (Triple κ))
    (hknown : known = test.filter (fun t => decide
      (m.minSamples ≤ ((lexSamples arg p data t.1).length : ℤ) ∧ t.2.1 ∈ x.id2row)))
    (hne : known ≠ []) (hnd : (known.map (·.2.2)).Nodup) :
    ∃ m1 m2 r r', m.train env le data arg p = .ok m1 ∧ m.train env le data arg' p' = .ok m2 ∧
      m1.compose test x = .ok r ∧ m2.compose test x' = .ok r' ∧ r.id2row = known.map (·.2.2) ∧ TurnedSpace R r r' := by
  have hex : ∃ f, m.minSamples ≤ ((lexSamples arg p data f).length : ℤ) := by
    obtain ⟨t, ht⟩ := List.exists_mem_of_ne_nil _ hne
    rw [hknown, List.mem_filter] at ht
    exact ⟨t.1, (of_decide_eq_true ht.2).1⟩
  have hlex : ∀ f, lexSamples arg' p' data f = lexSamples arg p data f := fun f => by unfold lexSamples; rw [ta.rows, tp.rows]
  have hmem : ∀ f, ∀ t ∈ lexSamples arg p data f, t.2.1 ∈ arg.id2row ∧ t.2.2 ∈ p.id2row := by
    intro f t ht
    unfold lexSamples at ht
    exact (of_decide_eq_true (List.mem_filter.1 ht).2).2
  have hX : ∀ f, ∃ X : Mat ℝ, m.minSamples ≤ ((lexSamples arg p data f).length : ℤ) →
      m.learner.train env ⟨lexTy arg p, argRows arg (lexSamples arg p data f)⟩
        ⟨lexTy arg p, phraseRows p (lexSamples arg p data f)⟩ = .ok ⟨lexTy arg p, X⟩ ∧
      m.learner.train env ⟨lexTy arg' p', (argRows arg (lexSamples arg p data f)).mul Q⟩
        ⟨lexTy arg' p', (phraseRows p (lexSamples arg p data f)).mul R⟩ =
          .ok ⟨lexTy arg' p', ((extQ arg.mat.nc Q m.learner.hasIntercept).transpose.mul X).mul R⟩ ∧
      X.nr = (if m.learner.hasIntercept then arg.mat.nc + 1 else arg.mat.nc) ∧ X.nc = p.mat.nc := by
    intro f
    by_cases hf : m.minSamples ≤ ((lexSamples arg p data f).length : ℤ)
    · have hpos : 0 < (lexSamples arg p data f).length := by omega
      obtain ⟨X, e1, e2, e3, e4⟩ := learner_turn henv hl (lexTy arg p) (lexTy arg' p')
        (A := argRows arg (lexSamples arg p data f)) (B := phraseRows p (lexSamples arg p data f)) oQ oR rfl rfl rfl hpos na np
      exact ⟨X, fun _ => ⟨e1, e2, e3, e4⟩⟩
    · exact ⟨Mat.identity 0, fun h => absurd h hf⟩
  choose X hX using hX
  obtain ⟨m1, r, a1, a2, a3, a4, _, a6, a7⟩ := C46_train_compose env le htrans htotal hanti m data arg p ha hp na np hsh hpsh hms hex
    (fun f => ⟨lexTy arg p, X f⟩) (fun f hf => ⟨(hX f hf).1, rfl, (hX f hf).2.2.1, (hX f hf).2.2.2⟩) test x hx hn known hknown hne hnd
  obtain ⟨m2, r', b1, b2, b3, b4, _, b6, b7⟩ := C46_train_compose env le htrans htotal hanti m data arg' p' ha' hp'
    (by rw [ta.width]; exact na) (by rw [tp.width]; exact np) hsh' hpsh' hms (by simpa only [hlex] using hex)
    (fun f => ⟨lexTy arg' p', ((extQ arg.mat.nc Q m.learner.hasIntercept).transpose.mul (X f)).mul R⟩)
    (fun f hf => by
      rw [hlex] at hf ⊢
      rw [ta.argRows oQ (fun t ht => (hmem f t ht).1), tp.phraseRows oR (fun t ht => (hmem f t ht).2)]
      exact ⟨(hX f hf).2.1, rfl, by rw [ta.width]; rfl, by rw [tp.width]; exact oR.nc⟩) test x' hx'
    (by rw [tx.width, ta.width, hn]) known (by simp only [hlex, tx.rows]; exact hknown) hne hnd
  have hw : r.mat.nc = p.mat.nc := by rw [← a3.shape, a6, hp.shape]
  have hw' : r'.mat.nc = p.mat.nc := by rw [← b3.shape, b6, hp'.shape, tp.width]
  refine ⟨m1, m2, r, r', a1, b1, a2, b2, a4, b4.trans a4.symm, hw'.trans hw.symm, fun w hwm j hj => ?_⟩
  rw [a4] at hwm
  obtain ⟨⟨f, y, ph⟩, ht, rfl⟩ := List.mem_map.1 hwm
  have hidx := idxOf_phrase hnd ht
  have htk := ht
  rw [hknown, List.mem_filter] at htk
  obtain ⟨_, htk⟩ := htk
  obtain ⟨hf, hy⟩ := of_decide_eq_true htk
  rw [hw] at hj ⊢
  unfold Space.vecOf
  rw [a4, b4, b7 _ _ _ _ hidx j (by rw [tp.width]; exact hj), ta.width,
    predictVec_turn (Q := Q) (R := R) (X := X f) (p := p.mat.nc) oQ (hX f hf).2.2.1 (hX f hf).2.2.2 (x := x.vecOf y)
      (fun j hj => by rw [tx.vecs _ hy j (by omega), hn]) j]
  unfold turn
  exact Finset.sum_congr rfl fun k hk => by rw [a7 _ _ _ _ hidx k (Finset.mem_range.1 hk)]

/-- **C153** `WeightedAdditive`: with all spaces in the same new basis the same two weights are learned. -/
theorem C153_weighted (env : Env) (henv : env.Ideal) (c : Composer κ) (a0 b0 : ℝ) (hc : c.model = .weighted a0 b0)
    (data : List (Triple κ)) (args args' : ArgSpace κ) (s1 s1' s2 s2' p p' : Space κ) (n : ℕ) (Q : Mat ℝ) (oQ : IsOrtho n Q)
    (t1 : TurnedSpace Q s1 s1') (t2 : TurnedSpace Q s2 s2') (tp : TurnedSpace Q p p')
    (hx : args.extract = .ok (s1, s2)) (hx' : args'.extract = .ok (s1', s2'))
    (h1 : s1.WF) (h1' : s1'.WF) (h2 : s2.WF) (h2' : s2'.WF) (hp : p.WF) (hp' : p'.WF) (hn : 0 < n)
    (n1 : s1.mat.nc = n) (n2 : s2.mat.nc = n) (n3 : p.mat.nc = n) (hv : trainTriples s1 s2 p data ≠ []) :
    ∃ a b, c.train env data args p = .ok ⟨.weighted a b, some p.id2col⟩ ∧
      c.train env data args' p' = .ok ⟨.weighted a b, some p'.id2col⟩ := by
  have hnr : p'.mat.nr = p.mat.nr := by rw [hp'.nrows, hp.nrows, tp.rows]
  have hu : usedSamples p' (trainTriples s1' s2' p' data) = usedSamples p (trainTriples s1 s2 p data) := by
    unfold usedSamples; rw [turned_triples t1 t2 tp, hnr]
  have hmem : ∀ t ∈ usedSamples p (trainTriples s1 s2 p data), t.1 ∈ s1.id2row ∧ t.2.1 ∈ s2.id2row ∧ t.2.2 ∈ p.id2row :=
    fun t ht => trainTriples_mem (List.mem_of_mem_take ht)
  have hd : dotsOf s1' s2' p' n (usedSamples p (trainTriples s1 s2 p data)) =
      dotsOf s1 s2 p n (usedSamples p (trainTriples s1 s2 p data)) := by
    unfold dotsOf
    congr 2
    · exact List.map_congr_left fun t ht => TurnedSpace.dot oQ t1 t2 n1 n2 (hmem t ht).1 (hmem t ht).2.1
    · exact List.map_congr_left fun t ht => TurnedSpace.dot oQ t1 tp n1 n3 (hmem t ht).1 (hmem t ht).2.2
    · exact List.map_congr_left fun t ht => TurnedSpace.dot oQ t2 tp n2 n3 (hmem t ht).2.1 (hmem t ht).2.2
    · exact List.map_congr_left fun t ht => TurnedSpace.dot oQ t1 t1 n1 n1 (hmem t ht).1 (hmem t ht).1
    · exact List.map_congr_left fun t ht => TurnedSpace.dot oQ t2 t2 n2 n2 (hmem t ht).2.1 (hmem t ht).2.1
  have hg : gram2 s1' s2' n (usedSamples p (trainTriples s1 s2 p data)) = gram2 s1 s2 n (usedSamples p (trainTriples s1 s2 p data)) := by
    rw [← gram2_eq s1' s2' p', ← gram2_eq s1 s2 p, hd]
  obtain ⟨P, hP, hpin⟩ := henv.pinv (gram2 s1 s2 n (usedSamples p (trainTriples s1 s2 p data)))
  have e1 := trainWeighted_ok env c a0 b0 hc data args s1 s2 p n hx h1 h2 hp hn n1 n2 n3 hv P hP hpin.nc
  have e2 := trainWeighted_ok env c a0 b0 hc data args' s1' s2' p' n hx' h1' h2' hp' hn (t1.width.trans n1) (t2.width.trans n2)
    (tp.width.trans n3) (by rw [turned_triples t1 t2 tp]; exact hv) P (by rw [hu, hg]; exact hP) hpin.nc
  simp only at e1 e2
  rw [hu, hd] at e2
  exact ⟨_, _, e1, e2⟩

/-- **C153** `Dilation`: the same factor is learned. -/
theorem C153_dilation (env : Env) (c : Composer κ) (l0 : ℝ) (hc : c.model = .dilation l0)
    (data : List (Triple κ)) (args args' : ArgSpace κ) (s1 s1' s2 s2' p p' : Space κ) (n : ℕ) (Q : Mat ℝ) (oQ : IsOrtho n Q)
    (t1 : TurnedSpace Q s1 s1') (t2 : TurnedSpace Q s2 s2') (tp : TurnedSpace Q p p')
    (hx : args.extract = .ok (s1, s2)) (hx' : args'.extract = .ok (s1', s2'))
    (h1 : s1.WF) (h1' : s1'.WF) (h2 : s2.WF) (h2' : s2'.WF) (hp : p.WF) (hp' : p'.WF) (hn : 0 < n)
    (n1 : s1.mat.nc = n) (n2 : s2.mat.nc = n) (n3 : p.mat.nc = n) (hv : trainTriples s1 s2 p data ≠ []) :
    ∃ lam, c.train env data args p = .ok ⟨.dilation lam, some p.id2col⟩ ∧
      c.train env data args' p' = .ok ⟨.dilation lam, some p'.id2col⟩ := by
  have hmem : ∀ t ∈ trainTriples s1 s2 p data, t.1 ∈ s1.id2row ∧ t.2.1 ∈ s2.id2row ∧ t.2.2 ∈ p.id2row :=
    fun t ht => trainTriples_mem ht
  have hlin : ∀ (x y z : ℕ → ℝ) (k : ℝ), dot n x (fun j => k * y j - z j) = k * dot n x y - dot n x z := by
    intro x y z k
    unfold dot
    rw [Finset.mul_sum, ← Finset.sum_sub_distrib]
    exact Finset.sum_congr rfl fun j _ => by ring
  rw [train_reduce env c data args s1 s2 p hx h1 h2 hp hv (by rw [hc]; rfl),
    train_reduce env c data args' s1' s2' p' hx' h1' h2' hp' (by rw [turned_triples t1 t2 tp]; exact hv) (by rw [hc]; rfl),
    turned_triples t1 t2 tp, hc, dilation_trainOn env h1 h2 hp hn n1 n2 n3 _ hv hmem,
    dilation_trainOn env h1' h2' hp' hn (t1.width.trans n1) (t2.width.trans n2) (tp.width.trans n3) _ hv
      (fun t ht => by rw [t1.rows, t2.rows, tp.rows]; exact hmem t ht)]
  have e1 : (trainTriples s1 s2 p data).map (fun t => dot n (s1'.vecOf t.1) (s2'.vecOf t.2.1) ^ 2 *
        dot n (s1'.vecOf t.1) (s1'.vecOf t.1)) =
      (trainTriples s1 s2 p data).map (fun t => dot n (s1.vecOf t.1) (s2.vecOf t.2.1) ^ 2 * dot n (s1.vecOf t.1) (s1.vecOf t.1)) :=
    List.map_congr_left fun t ht => by
      rw [TurnedSpace.dot oQ t1 t2 n1 n2 (hmem t ht).1 (hmem t ht).2.1, TurnedSpace.dot oQ t1 t1 n1 n1 (hmem t ht).1 (hmem t ht).1]
  have e2 : (trainTriples s1 s2 p data).map (fun t => dot n (s1'.vecOf t.1) (s2'.vecOf t.2.1) * dot n (s1'.vecOf t.1)
          (fun j => dot n (s1'.vecOf t.1) (s1'.vecOf t.1) * s2'.vecOf t.2.1 j - p'.vecOf t.2.2 j)) =
      (trainTriples s1 s2 p data).map (fun t => dot n (s1.vecOf t.1) (s2.vecOf t.2.1) * dot n (s1.vecOf t.1)
          (fun j => dot n (s1.vecOf t.1) (s1.vecOf t.1) * s2.vecOf t.2.1 j - p.vecOf t.2.2 j)) :=
    List.map_congr_left fun t ht => by
      rw [hlin, hlin, TurnedSpace.dot oQ t1 t2 n1 n2 (hmem t ht).1 (hmem t ht).2.1,
        TurnedSpace.dot oQ t1 t1 n1 n1 (hmem t ht).1 (hmem t ht).1, TurnedSpace.dot oQ t1 tp n1 n3 (hmem t ht).1 (hmem t ht).2.2]
  simp only [e1, e2]
  split
  · exact ⟨_, rfl, rfl⟩
  · exact ⟨_, rfl, rfl⟩

/-- **C153** `WeightedAdditive` and `Dilation` compose turned vectors to the turned composed vectors. -/
theorem C153_compose (c c' : Composer κ) (hc : (∃ a b, c.model = .weighted a b) ∨ ∃ l, c.model = .dilation l)
    (hcc : c'.model = c.model) (data : List (Triple κ)) (args args' : ArgSpace κ) (s1 s1' s2 s2' : Space κ) (n : ℕ) (Q : Mat ℝ)
    (oQ : IsOrtho n Q) (t1 : TurnedSpace Q s1 s1') (t2 : TurnedSpace Q s2 s2')
    (hx : args.extract = .ok (s1, s2)) (hx' : args'.extract = .ok (s1', s2'))
    (h1 : s1.WF) (h1' : s1'.WF) (h2 : s2.WF) (h2' : s2'.WF) (hn : 0 < n) (n1 : s1.mat.nc = n) (n2 : s2.mat.nc = n)
    (hf : c.ColumnsFit n) (hf' : c'.ColumnsFit n) (hv : knownTriples s1 s2 data ≠ [])
    (hnd : ((knownTriples s1 s2 data).map (·.2.2)).Nodup) :
    ∃ r r', (c.compose data args).2 = .ok r ∧ (c'.compose data args').2 = .ok r' ∧
      r.id2row = (knownTriples s1 s2 data).map (·.2.2) ∧ TurnedSpace Q r r' := by
  have hfits : c.model.Fits n n n := by
    rcases hc with ⟨a, b, h⟩ | ⟨l, h⟩ <;> rw [h] <;> exact ⟨hn, hn, hn, rfl, rfl⟩
  obtain ⟨r, e, k⟩ := C38_compose c data args s1 s2 n hx h1 h2 (by rw [n1, n2]; exact hfits) hf hv hnd
  obtain ⟨r', e', k'⟩ := C38_compose c' data args' s1' s2' n hx' h1' h2' (by rw [t1.width, t2.width, n1, n2, hcc]; exact hfits) hf'
    (by rw [turned_known t1 t2]; exact hv) (by rw [turned_known t1 t2]; exact hnd)
  rw [turned_known t1 t2] at k'
  refine ⟨r, r', e, e', k.labels, k'.labels.trans k.labels.symm, k'.width.trans k.width.symm, fun w hw j hj => ?_⟩
  rw [k.labels] at hw
  obtain ⟨t, ht, rfl⟩ := List.mem_map.1 hw
  have hm := mem_known.1 ht
  rw [k.width] at hj ⊢
  rw [composed_vec hnd k' ht (by rw [t1.rows]; exact hm.2.1) (by rw [t2.rows]; exact hm.2.2) hj, hcc, t1.width, t2.width, n1, n2]
  have hturn : turn n Q (r.vecOf t.2.2) j = turn n Q (c.model.vec n n (s1.vecOf t.1) (s2.vecOf t.2.1)) j := by
    unfold turn
    refine Finset.sum_congr rfl fun i hi => ?_
    rw [composed_vec hnd k ht hm.2.1 hm.2.2 (Finset.mem_range.1 hi), n1, n2]
  have hlin : ∀ (a b : ℝ) (x y : ℕ → ℝ), turn n Q (fun i => a * x i + b * y i) j = a * turn n Q x j + b * turn n Q y j := by
    intro a b x y
    unfold turn
    rw [Finset.mul_sum, Finset.mul_sum, ← Finset.sum_add_distrib]
    exact Finset.sum_congr rfl fun i _ => by ring
  have v1 : s1'.vecOf t.1 j = turn n Q (s1.vecOf t.1) j := by rw [t1.vecs _ hm.2.1 j (by omega), n1]
  have v2 : s2'.vecOf t.2.1 j = turn n Q (s2.vecOf t.2.1) j := by rw [t2.vecs _ hm.2.2 j (by omega), n2]
  rw [hturn]
  rcases hc with ⟨a, b, h⟩ | ⟨l, h⟩
  · rw [h]
    simp only [CModel.vec, weightedVec]
    rw [v1, v2, ← hlin]
    rfl
  · rw [h]
    simp only [CModel.vec, dilationVec]
    rw [v1, v2, TurnedSpace.dot oQ t1 t1 n1 n1 hm.2.1 hm.2.1, TurnedSpace.dot oQ t1 t2 n1 n2 hm.2.1 hm.2.2, ← hlin]
    rfl

/-! ## C154: the order of the two constituents -/

theorem swap_triples (s1 s2 p : Space κ) (data : List (Triple κ)) :
    trainTriples s2 s1 p (swapData data) = swapData (trainTriples s1 s2 p data) := by
  unfold trainTriples swapData
  rw [List.filter_map]
  congr 1
  refine List.filter_congr fun t _ => ?_
  simp only [Function.comp_apply, decide_eq_decide]
  tauto

theorem swap_known (s1 s2 : Space κ) (data : List (Triple κ)) :
    knownTriples s2 s1 (swapData data) = swapData (knownTriples s1 s2 data) := by
  unfold knownTriples swapData
  rw [List.filter_map]
  congr 1
  refine List.filter_congr fun t _ => ?_
  simp only [Function.comp_apply, decide_eq_decide]
  tauto

theorem dot_comm (n : ℕ) (x y : ℕ → ℝ) : dot n x y = dot n y x := Finset.sum_congr rfl fun _ _ => mul_comm _ _

/-- **C154** `WeightedAdditive`: exchanging the two constituents in the data, and the two argument spaces, exchanges the two
learned weights. -/
theorem C154_weighted (env : Env) (henv : env.Ideal) (c : Composer κ) (a0 b0 : ℝ) (hc : c.model = .weighted a0 b0)
    (data : List (Triple κ)) (args args' : ArgSpace κ) (s1 s2 p : Space κ) (n : ℕ)
    (hx : args.extract = .ok (s1, s2)) (hx' : args'.extract = .ok (s2, s1))
    (h1 : s1.WF) (h2 : s2.WF) (hp : p.WF) (hn : 0 < n)
    (n1 : s1.mat.nc = n) (n2 : s2.mat.nc = n) (n3 : p.mat.nc = n) (hv : trainTriples s1 s2 p data ≠ []) :
    ∃ a b, c.train env data args p = .ok ⟨.weighted a b, some p.id2col⟩ ∧
      c.train env (swapData data) args' p = .ok ⟨.weighted b a, some p.id2col⟩ := by
  have hu : usedSamples p (trainTriples s2 s1 p (swapData data)) = swapData (usedSamples p (trainTriples s1 s2 p data)) := by
    rw [swap_triples]
    unfold usedSamples swapData
    rw [List.length_map, List.map_take]
  obtain ⟨P, hP, hpin⟩ := henv.pinv (gram2 s1 s2 n (usedSamples p (trainTriples s1 s2 p data)))
  obtain ⟨P', hP', hpin'⟩ := henv.pinv (gram2 s2 s1 n (usedSamples p (trainTriples s2 s1 p (swapData data))))
  have e1 := trainWeighted_ok env c a0 b0 hc data args s1 s2 p n hx h1 h2 hp hn n1 n2 n3 hv P hP hpin.nc
  have e2 := trainWeighted_ok env c a0 b0 hc (swapData data) args' s2 s1 p n hx' h2 h1 hp hn n2 n1 n3
    (by rw [swap_triples]; unfold swapData; simpa using hv) P' hP' hpin'.nc
  simp only at e1 e2
  refine ⟨_, _, e1, ?_⟩
  rw [e2]
  rw [hu] at hpin' ⊢
  generalize usedSamples p (trainTriples s1 s2 p data) = v at hpin hpin'
  -- the exchange of the two coordinates
  set S : Mat ℝ := Mat.of 2 2 (fun i j => if i = j then 0 else 1) with hS
  have oS : IsOrtho 2 S := by
    refine ⟨rfl, rfl, fun i hi j hj => ?_⟩
    unfold dot
    rw [Finset.sum_range_succ, Finset.sum_range_one, hS, Mat.of_get_lt hi (by omega), Mat.of_get_lt hi (by omega),
      Mat.of_get_lt hj (by omega), Mat.of_get_lt hj (by omega)]
    have hi2 : i = 0 ∨ i = 1 := by omega
    have hj2 : j = 0 ∨ j = 1 := by omega
    rcases hi2 with rfl | rfl <;> rcases hj2 with rfl | rfl <;> simp
  have sget : ∀ (M : Mat ℝ), M.nr = 2 → M.nc = 2 → ∀ i < 2, ∀ j < 2, ((S.transpose.mul M).mul S).get i j = M.get (1 - i) (1 - j) := by
    intro M hr hc i hi j hj
    rw [Mat.mul_get, show (S.transpose.mul M).nc = 2 from hc, Finset.sum_range_succ, Finset.sum_range_one, Mat.mul_get, Mat.mul_get,
      show S.transpose.nc = 2 from rfl, Finset.sum_range_succ, Finset.sum_range_one, Finset.sum_range_succ, Finset.sum_range_one,
      Mat.transpose_get, Mat.transpose_get, hS, Mat.of_get_lt (by omega) hi, Mat.of_get_lt (by omega) hi,
      Mat.of_get_lt (by omega) hj, Mat.of_get_lt (by omega) hj]
    have hi2 : i = 0 ∨ i = 1 := by omega
    have hj2 : j = 0 ∨ j = 1 := by omega
    rcases hi2 with rfl | rfl <;> rcases hj2 with rfl | rfl <;> simp
  have hg : gram2 s2 s1 n (swapData v) = (S.transpose.mul (gram2 s1 s2 n v)).mul S := by
    refine Mat.ext' rfl rfl fun i j hi hj => ?_
    have hi' : i < 2 := hi
    have hj' : j < 2 := hj
    rw [sget _ rfl rfl i hi' j hj']
    unfold gram2
    rw [Mat.of_get_lt hi' hj', Mat.of_get_lt (by omega) (by omega)]
    unfold swapData
    rw [List.map_map]
    have hi2 : i = 0 ∨ i = 1 := by omega
    have hj2 : j = 0 ∨ j = 1 := by omega
    rcases hi2 with rfl | rfl <;> rcases hj2 with rfl | rfl <;> rfl
  rw [hg] at hpin'
  have hPP := hpin'.unique (pinv_turn oS rfl rfl hpin)
  have hd1 : (dotsOf s2 s1 p n (swapData v)).d1p = (dotsOf s1 s2 p n v).d2p := by
    unfold dotsOf swapData; simp only [List.map_map]; rfl
  have hd2 : (dotsOf s2 s1 p n (swapData v)).d2p = (dotsOf s1 s2 p n v).d1p := by
    unfold dotsOf swapData; simp only [List.map_map]; rfl
  rw [hd1, hd2, hPP, sget P hpin.nr hpin.nc 0 (by omega) 0 (by omega), sget P hpin.nr hpin.nc 0 (by omega) 1 (by omega),
    sget P hpin.nr hpin.nc 1 (by omega) 0 (by omega), sget P hpin.nr hpin.nc 1 (by omega) 1 (by omega)]
  congr 3 <;> exact add_comm _ _

/-- The exchange of the two parts of a joined vector. -/
def swapQ (n1 n2 : ℕ) : Mat ℝ := Mat.of (n1 + n2) (n1 + n2) (fun i j => if j = (if i < n1 then n2 + i else i - n1) then 1 else 0)

theorem turn_swap {n1 n2 : ℕ} (u v : ℕ → ℝ) {j : ℕ} (hj : j < n1 + n2) :
    turn (n1 + n2) (swapQ n1 n2) (joinVec n1 u v) j = joinVec n2 v u j := by
  unfold turn
  have e : ∀ i ∈ range (n1 + n2), joinVec n1 u v i * (swapQ n1 n2).get i j =
      if i = (if j < n2 then n1 + j else j - n2) then joinVec n1 u v i else 0 := by
    intro i hi
    have hi' := Finset.mem_range.1 hi
    unfold swapQ
    rw [Mat.of_get_lt hi' hj]
    have : (j = if i < n1 then n2 + i else i - n1) ↔ (i = if j < n2 then n1 + j else j - n2) := by
      split <;> split <;> omega
    by_cases h : j = if i < n1 then n2 + i else i - n1
    · rw [if_pos h, if_pos (this.1 h), mul_one]
    · rw [if_neg h, if_neg (fun h' => h (this.2 h')), mul_zero]
  rw [Finset.sum_congr rfl e, Finset.sum_ite_eq', if_pos (Finset.mem_range.2 (by split <;> omega))]
  unfold joinVec
  by_cases h : j < n2
  · rw [if_pos h, if_neg (by omega), Nat.add_sub_cancel_left, if_pos h]
  · rw [if_neg h, if_pos (by omega), if_neg h]

theorem swapQ_ortho (n1 n2 : ℕ) : IsOrtho (n1 + n2) (swapQ n1 n2) := by
  refine ⟨rfl, rfl, fun i hi j hj => ?_⟩
  unfold dot
  have e : ∀ k ∈ range (n1 + n2), (swapQ n1 n2).get i k * (swapQ n1 n2).get j k =
      if k = (if i < n1 then n2 + i else i - n1) then (if i = j then 1 else 0) else 0 := by
    intro k hk
    have hk' := Finset.mem_range.1 hk
    unfold swapQ
    rw [Mat.of_get_lt hi hk', Mat.of_get_lt hj hk']
    by_cases h : k = if i < n1 then n2 + i else i - n1
    · rw [if_pos h, if_pos h, one_mul]
      have : (k = if j < n1 then n2 + j else j - n1) ↔ i = j := by
        rw [h]
        split <;> split <;> omega
      by_cases hij : i = j
      · rw [if_pos hij, if_pos (this.2 hij)]
      · rw [if_neg hij, if_neg (fun h' => hij (this.1 h'))]
    · rw [if_neg h, if_neg h, zero_mul]
  rw [Finset.sum_congr rfl e, Finset.sum_ite_eq', if_pos (Finset.mem_range.2 (by split <;> omega))]

theorem identity_ortho (n : ℕ) : IsOrtho n (Mat.identity n) := by
  refine ⟨rfl, rfl, fun i hi j hj => ?_⟩
  unfold dot Mat.identity
  have e : ∀ k ∈ range n, (Mat.of n n (fun i j => if i = j then (1 : ℝ) else 0)).get i k *
      (Mat.of n n (fun i j => if i = j then (1 : ℝ) else 0)).get j k = if k = i then (if i = j then 1 else 0) else 0 := by
    intro k hk
    rw [Mat.of_get_lt hi (Finset.mem_range.1 hk), Mat.of_get_lt hj (Finset.mem_range.1 hk)]
    by_cases h : k = i
    · subst h
      by_cases hj : j = k
      · simp [hj]
      · have : ¬ k = j := fun h => hj h.symm
        simp [hj, this]
    · have : ¬ i = k := fun h' => h h'.symm
      simp [h, this]
  rw [Finset.sum_congr rfl e, Finset.sum_ite_eq', if_pos (Finset.mem_range.2 hi)]

theorem turn_identity {n : ℕ} (x : ℕ → ℝ) {j : ℕ} (hj : j < n) : turn n (Mat.identity n) x j = x j := by
  unfold turn Mat.identity
  rw [Finset.sum_congr rfl (fun k hk => by rw [Mat.of_get_lt (Finset.mem_range.1 hk) hj])]
  simp [hj]

/-- **C154** `FullAdditive`: exchanging the two constituents in the data, and the two argument spaces, both when training and when
composing, gives the same composed vectors: the two learned matrices are exchanged. -/
theorem C154_full_additive (env : Env) (henv : env.Ideal) (c : Composer κ) (at0 bt0 : Option (TMat ℝ)) (i0 : Bool)
    (l : Learner) (hl : l.Built) (hc : c.model = .fullAdditive at0 bt0 i0 (some l)) (data : List (Triple κ))
    (args args' : ArgSpace κ) (s1 s2 p : Space κ)
    (hx : args.extract = .ok (s1, s2)) (hx' : args'.extract = .ok (s2, s1))
    (h1 : s1.WF) (h2 : s2.WF) (hp : p.WF)
    (n1 : 0 < s1.mat.nc) (n2 : 0 < s2.mat.nc) (n3 : 0 < p.mat.nc) (hv : trainTriples s1 s2 p data ≠ []) :
    ∃ c1 c2, c.train env data args p = .ok c1 ∧ c.train env (swapData data) args' p = .ok c2 ∧
      (∀ (u v : ℕ → ℝ), ∀ j < p.mat.nc, c2.model.vec s2.mat.nc s1.mat.nc v u j = c1.model.vec s1.mat.nc s2.mat.nc u v j) ∧
      ∀ (a a' : ArgSpace κ) (x y : Space κ) (test : List (Triple κ)), a.extract = .ok (x, y) → a'.extract = .ok (y, x) →
        x.WF → y.WF → x.mat.nc = s1.mat.nc → y.mat.nc = s2.mat.nc →
        knownTriples x y test ≠ [] → ((knownTriples x y test).map (·.2.2)).Nodup →
        ∃ r r', (c1.compose test a).2 = .ok r ∧ (c2.compose (swapData test) a').2 = .ok r' ∧
          r.id2row = (knownTriples x y test).map (·.2.2) ∧ r'.id2row = r.id2row ∧ r.mat.nc = p.mat.nc ∧ r'.mat.nc = p.mat.nc ∧
          ∀ w ∈ r.id2row, ∀ j < p.mat.nc, r'.vecOf w j = r.vecOf w j := by
  obtain ⟨ty, H⟩ := C44_full_additive env c at0 bt0 i0 l hc data args s1 s2 p hx h1 h2 hp n1 n2 n3 hv
  obtain ⟨ty', H'⟩ := C44_full_additive env c at0 bt0 i0 l hc (swapData data) args' s2 s1 p hx' h2 h1 hp n2 n1 n3
    (by rw [swap_triples]; unfold swapData; simpa using hv)
  have oB := swapQ_ortho s1.mat.nc s2.mat.nc
  have oR := identity_ortho p.mat.nc
  have hget : ∀ (v : List (Triple κ)) (k : ℕ) (t : Triple κ), v[k]? = some t → (swapData v)[k]? = some (t.2.1, t.1, t.2.2) := by
    intro v k t h
    unfold swapData
    rw [List.getElem?_map, h]
    rfl
  have hpair : pairRows s2 s1 (swapData (trainTriples s1 s2 p data)) =
      (pairRows s1 s2 (trainTriples s1 s2 p data)).mul (swapQ s1.mat.nc s2.mat.nc) := by
    refine rows_turn oB (f := fun t => joinVec s1.mat.nc (s1.vecOf t.1) (s2.vecOf t.2.1))
      (f' := fun t => joinVec s2.mat.nc (s2.vecOf t.2.1) (s1.vecOf t.1)) rfl (by exact List.length_map _) rfl
      (Nat.add_comm _ _) (fun k t hk j hj => pairRows_get k t hk j hj) (fun k t hk j hj => ?_) (fun t ht j hj => ?_)
    · rw [pairRows_get k _ (hget _ k t hk) j (by omega)]
    · rw [turn_swap _ _ hj]
  have hph : phraseRows p (swapData (trainTriples s1 s2 p data)) =
      (phraseRows p (trainTriples s1 s2 p data)).mul (Mat.identity p.mat.nc) := by
    refine rows_turn oR (f := fun t => p.vecOf t.2.2) (f' := fun t => p.vecOf t.2.2) rfl (by exact List.length_map _) rfl rfl
      (fun k t hk j hj => phraseRows_get k t hk j hj) (fun k t hk j hj => ?_) (fun t ht j hj => (turn_identity _ hj).symm)
    rw [phraseRows_get k _ (hget _ k t hk) j hj]
  rw [swap_triples, hpair, hph] at H'
  have hpos : 0 < (trainTriples s1 s2 p data).length := List.length_pos_iff.2 hv
  obtain ⟨X, e1, e2, e3, e4⟩ := learner_turn henv hl ty ty' (A := pairRows s1 s2 (trainTriples s1 s2 p data))
    (B := phraseRows p (trainTriples s1 s2 p data)) oB oR rfl rfl rfl hpos (by omega) n3
  obtain ⟨c1, g1, _, g3, g4⟩ := H ⟨ty, X⟩ e1 e3 e4
  obtain ⟨c2, g1', _, g3', g4'⟩ := H' _ e2 (by rw [Nat.add_comm s2.mat.nc]; rfl) rfl
  rw [Nat.add_comm s2.mat.nc] at g3' g4'
  have hpred : ∀ (u v : ℕ → ℝ), ∀ j < p.mat.nc,
      predictVec (s1.mat.nc + s2.mat.nc)
        (((extQ (s1.mat.nc + s2.mat.nc) (swapQ s1.mat.nc s2.mat.nc) l.hasIntercept).transpose.mul X).mul (Mat.identity p.mat.nc)).get
        l.hasIntercept (joinVec s2.mat.nc v u) j =
      predictVec (s1.mat.nc + s2.mat.nc) X.get l.hasIntercept (joinVec s1.mat.nc u v) j := by
    intro u v j hj
    rw [predictVec_turn (X := X) (p := p.mat.nc) oB e3 e4 (x := joinVec s1.mat.nc u v) (fun j hj => (turn_swap _ _ hj).symm) j,
      turn_identity _ hj]
  refine ⟨c1, c2, g1, g1', fun u v j hj => ?_, fun a a' x y test ex ex' w1 w2 m1 m2 hne hnd => ?_⟩
  · rw [g3, g3']
    exact hpred u v j hj
  obtain ⟨r, r1, r2, r3, _, r5, r6⟩ := g4 a x y test ex w1 w2 m1 m2 hne hnd
  have hlab : (swapData (knownTriples x y test)).map (·.2.2) = (knownTriples x y test).map (·.2.2) := by
    unfold swapData; rw [List.map_map]; rfl
  obtain ⟨r', r1', r2', r3', _, r5', r6'⟩ := g4' a' y x (swapData test) ex' w2 w1 m2 m1
    (by rw [swap_known]; unfold swapData; simpa using hne) (by rw [swap_known, hlab]; exact hnd)
  rw [swap_known] at r3' r6'
  rw [hlab] at r3'
  refine ⟨r, r', r1, r1', r3, r3'.trans r3.symm, r5, r5', fun w hw j hj => ?_⟩
  rw [r3] at hw
  obtain ⟨⟨f, g, ph⟩, ht, rfl⟩ := List.mem_map.1 hw
  have hidx := idxOf_phrase hnd ht
  unfold Space.vecOf
  rw [r3, r3', r6' _ _ _ _ (hget _ _ _ hidx) j hj, r6 _ _ _ _ hidx j hj]
  exact hpred _ _ j hj

end
end Dissect
