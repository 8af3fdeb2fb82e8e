import Verif.Model.Scoring
import Verif.Spec.Scoring
import Verif.Lemmas.Py
import Mathlib.Tactic.FieldSimp
import Mathlib.Tactic.Linarith
import Mathlib.Algebra.BigOperators.Group.List.Basic
import Mathlib.Algebra.Order.BigOperators.Group.List

/-! # Scoring: C65, C66 -/

namespace Dissect

/-- Number of positive records. -/
noncomputable def cntPos (l : List Pt) : ℕ := (l.filter (fun p => decide (p.gold = 1))).length
/-- Number of other records. -/
noncomputable def cntNeg (l : List Pt) : ℕ := (l.filter (fun p => decide (p.gold ≠ 1))).length

theorem cntPos_cons (p : Pt) (l : List Pt) : cntPos (p :: l) = cntPos l + if p.gold = 1 then 1 else 0 := by
  unfold cntPos
  rw [List.filter_cons]
  by_cases h : p.gold = 1 <;> simp [h]

theorem cntNeg_cons (p : Pt) (l : List Pt) : cntNeg (p :: l) = cntNeg l + if p.gold = 1 then 0 else 1 := by
  unfold cntNeg
  rw [List.filter_cons]
  by_cases h : p.gold = 1 <;> simp [h]

/-- For every negative record the number of positive records after it. -/
noncomputable def laterPos : List Pt → ℕ
  | [] => 0
  | p :: l => (if p.gold = 1 then 0 else cntPos l) + laterPos l

theorem aucStep_pos {P N : ℝ} (st : AucSt) {p : Pt} (h : p.gold = 1) :
    aucStep P N st p = ⟨(st.tp - 1) / P, st.xiOld, st.tp - 1, st.fp, st.auc⟩ := by
  unfold aucStep; rw [if_pos h]

theorem aucStep_neg {P N : ℝ} (st : AucSt) {p : Pt} (h : ¬ p.gold = 1) :
    aucStep P N st p = ⟨st.yi, (st.fp - 1) / N, st.tp, st.fp - 1, st.auc + (st.xiOld - (st.fp - 1) / N) * st.yi⟩ := by
  unfold aucStep; rw [if_neg h]

theorem aucLoop {P N : ℝ} (hP : 0 < P) (hN : 0 < N) (l : List Pt) : ∀ st : AucSt, st.tp = cntPos l → st.fp = cntNeg l →
    st.yi = st.tp / P → st.xiOld = st.fp / N →
    (l.foldl (aucStep P N) st).auc = st.auc + (laterPos l : ℝ) / (N * P) := by
  induction l with
  | nil => intro st _ _ _ _; simp [laterPos]
  | cons p l ih =>
    intro st h1 h2 h3 h4
    rw [List.foldl_cons]
    rw [cntPos_cons] at h1
    rw [cntNeg_cons] at h2
    by_cases hp : p.gold = 1
    · rw [aucStep_pos st hp]
      simp only [hp, if_true] at h1 h2 ⊢
      rw [ih]
      · simp [laterPos, hp]
      · simp only [h1]; push_cast; ring
      · simp only [h2]; push_cast; ring
      · rfl
      · exact h4
    · rw [aucStep_neg st hp]
      simp only [hp, if_false] at h1 h2 ⊢
      rw [ih]
      · simp only [laterPos, hp, if_false, h4, h3, h1, h2]
        push_cast
        field_simp
        ring
      · simp only [h1]; push_cast; ring
      · simp only [h2]; push_cast; ring
      · exact h3
      · rfl

theorem aucLoop_noPos {N : ℝ} (hN : 0 < N) (P : ℝ) (l : List Pt) : ∀ st : AucSt, cntPos l = 0 → st.fp = cntNeg l →
    st.yi = 1 → st.xiOld = st.fp / N →
    (l.foldl (aucStep P N) st).auc = st.auc + (cntNeg l : ℝ) / N := by
  induction l with
  | nil => intro st _ _ _ _; simp [cntNeg]
  | cons p l ih =>
    intro st h1 h2 h3 h4
    rw [List.foldl_cons]
    rw [cntPos_cons] at h1
    rw [cntNeg_cons] at h2 ⊢
    have hp : p.gold ≠ 1 := by
      intro h
      rw [if_pos h] at h1
      omega
    rw [aucStep_neg st hp]
    simp only [hp, if_false] at h1 h2 ⊢
    rw [ih]
    · simp only [h4, h3, h2]
      push_cast
      field_simp
      ring
    · omega
    · simp only [h2]; push_cast; ring
    · exact h3
    · rfl

theorem aucLoop_noNeg (P N : ℝ) (l : List Pt) : ∀ st : AucSt, cntNeg l = 0 →
    (l.foldl (aucStep P N) st).auc = st.auc := by
  induction l with
  | nil => intro st _; rfl
  | cons p l ih =>
    intro st h
    rw [List.foldl_cons]
    rw [cntNeg_cons] at h
    have hp : p.gold = 1 := by
      by_contra hc
      rw [if_neg hc] at h
      omega
    rw [aucStep_pos st hp]
    rw [ih _ (by rw [if_pos hp] at h; omega)]

/-- In the sorted list the positives after a negative are those with a score that is not lower. -/
theorem laterPos_sorted {l : List Pt} (hs : l.Pairwise Pt.le) (h01 : ∀ p ∈ l, p.gold = 0 ∨ p.gold = 1) :
    (laterPos l : ℝ) = ((l.filter (fun p => decide (p.gold = 0))).map (fun n =>
      ((l.filter (fun p => decide (p.gold = 1))).map (fun p => fullTies n.score p.score)).sum)).sum := by
  have aux : ∀ (pre l : List Pt), (pre ++ l).Pairwise Pt.le → (∀ p ∈ pre ++ l, p.gold = 0 ∨ p.gold = 1) →
      (laterPos l : ℝ) = ((l.filter (fun p => decide (p.gold = 0))).map (fun n =>
        (((pre ++ l).filter (fun p => decide (p.gold = 1))).map (fun p => fullTies n.score p.score)).sum)).sum := by
    intro pre l
    induction l generalizing pre with
    | nil => intro _ _; simp [laterPos]
    | cons q l ih =>
      intro hs h01
      have ih' := ih (pre ++ [q]) (by rwa [List.append_assoc, List.singleton_append])
        (by rwa [List.append_assoc, List.singleton_append])
      rw [List.append_assoc, List.singleton_append] at ih'
      unfold laterPos
      push_cast
      rw [ih', List.filter_cons]
      rcases h01 q (by simp) with hq | hq
      · have hq1 : ¬ q.gold = 1 := by rw [hq]; norm_num
        rw [if_neg hq1, if_pos (by simpa using hq), List.map_cons, List.sum_cons]
        congr 1
        rw [List.filter_append, List.filter_cons, if_neg (by simpa using hq1), List.map_append, List.sum_append]
        have z1 : ((pre.filter (fun p => decide (p.gold = 1))).map (fun p => fullTies q.score p.score)).sum = 0 := by
          apply List.sum_eq_zero
          intro x hx
          obtain ⟨p, hp, rfl⟩ := List.mem_map.1 hx
          obtain ⟨hp1, hp2⟩ := List.mem_filter.1 hp
          have hle := (List.pairwise_append.1 hs).2.2 p hp1 q (by simp)
          unfold fullTies
          rw [if_neg]
          simp only [decide_eq_true_eq] at hp2
          rcases hle with h | ⟨_, h⟩
          · exact not_le.2 h
          · rw [hp2, hq] at h; norm_num at h
        have z2 : ((l.filter (fun p => decide (p.gold = 1))).map (fun p => fullTies q.score p.score)).sum
            = (cntPos l : ℝ) := by
          have : (l.filter (fun p => decide (p.gold = 1))).map (fun p => fullTies q.score p.score)
              = (l.filter (fun p => decide (p.gold = 1))).map (fun _ => (1 : ℝ)) := by
            apply List.map_congr_left
            intro p hp
            have hp1 := (List.mem_filter.1 hp).1
            have hle := (List.pairwise_cons.1 (List.pairwise_append.1 hs).2.1).1 p hp1
            unfold fullTies
            rw [if_pos]
            rcases hle with h | ⟨h, _⟩
            · exact h.le
            · exact h.le
          rw [this]
          simp [cntPos]
        rw [z1, z2, zero_add]
      · have hq0 : ¬ q.gold = 0 := by rw [hq]; norm_num
        rw [if_pos hq, if_neg (by simpa using hq0)]
        simp
  simpa using aux [] l (by simpa using hs) (by simpa using h01)

theorem pointSet_ok : ∀ {gold pred : List ℝ}, gold.length ≤ pred.length → (∀ g ∈ gold, g = 0 ∨ g = 1) →
    pointSet gold pred = .ok ((gold.zip pred).map (fun e => ⟨e.1, e.2⟩)) := by
  intro gold
  induction gold with
  | nil => intro pred _ _; simp [pointSet]
  | cons g gs ih =>
    intro pred hlen h
    cases pred with
    | nil => simp at hlen
    | cons p ps =>
      rw [pointSet, if_pos (h g (by simp)), ih (by simpa using hlen) (fun x hx => h x (by simp [hx]))]
      rfl

theorem pointSet_bad : ∀ {gold pred : List ℝ}, gold.length ≤ pred.length → (∃ g ∈ gold, g ≠ 0 ∧ g ≠ 1) →
    pointSet gold pred = .error .valueError := by
  intro gold
  induction gold with
  | nil => rintro pred _ ⟨g, hg, _⟩; simp at hg
  | cons g gs ih =>
    rintro pred hlen ⟨x, hx, hx0⟩
    by_cases hg : g = 0 ∨ g = 1
    · cases pred with
      | nil => simp at hlen
      | cons p ps =>
        rw [pointSet, if_pos hg, ih (by simpa using hlen), error_bind]
        rcases List.mem_cons.1 hx with rfl | hx
        · tauto
        · exact ⟨x, hx, hx0⟩
    · rw [pointSet.eq_def]
      simp only []
      rw [if_neg hg]

instance : Std.Total Pt.le where
  total a b := by
    unfold Pt.le
    rcases lt_trichotomy a.score b.score with h | h | h
    · exact Or.inl (Or.inl h)
    · rcases le_total a.gold b.gold with g | g
      · exact Or.inl (Or.inr ⟨h, g⟩)
      · exact Or.inr (Or.inr ⟨h.symm, g⟩)
    · exact Or.inr (Or.inl h)

instance : IsTrans Pt Pt.le where
  trans a b c := by
    unfold Pt.le
    rintro (h | ⟨h, g⟩) (h' | ⟨h', g'⟩)
    · exact Or.inl (h.trans h')
    · exact Or.inl (h' ▸ h)
    · exact Or.inl (h ▸ h')
    · exact Or.inr ⟨h.trans h', g.trans g'⟩

/-! ## The value of `auc` -/

/-- The records of the data. -/
def ptsOf (gold pred : List ℝ) : List Pt := (gold.zip pred).map (fun e => ⟨e.1, e.2⟩)

theorem pos_of_pts (gold pred : List ℝ) :
    ((ptsOf gold pred).filter (fun p => decide (p.gold = 1))).map Pt.score = posScores gold pred := by
  unfold ptsOf posScores
  rw [List.filter_map, List.map_map]
  rfl

theorem neg_of_pts (gold pred : List ℝ) :
    ((ptsOf gold pred).filter (fun p => decide (p.gold = 0))).map Pt.score = negScores gold pred := by
  unfold ptsOf negScores
  rw [List.filter_map, List.map_map]
  rfl

theorem pts_gold {gold pred : List ℝ} (h : ∀ g ∈ gold, g = 0 ∨ g = 1) : ∀ p ∈ ptsOf gold pred, p.gold = 0 ∨ p.gold = 1 := by
  intro p hp
  obtain ⟨e, he, rfl⟩ := List.mem_map.1 hp
  exact h _ (List.of_mem_zip he).1

theorem cntPos_pts (gold pred : List ℝ) : cntPos (ptsOf gold pred) = (posScores gold pred).length := by
  rw [← pos_of_pts, List.length_map]; rfl

theorem cntNeg_pts {gold pred : List ℝ} (h : ∀ g ∈ gold, g = 0 ∨ g = 1) :
    cntNeg (ptsOf gold pred) = (negScores gold pred).length := by
  rw [← neg_of_pts, List.length_map]
  unfold cntNeg
  congr 1
  apply List.filter_congr
  intro p hp
  rcases pts_gold h p hp with h | h <;> simp [h]

theorem filter_zip_length : ∀ {gold pred : List ℝ}, gold.length ≤ pred.length →
    (gold.filter (fun g => decide (g = 1))).length = (posScores gold pred).length := by
  intro gold pred h
  have : gold = (gold.zip pred).map Prod.fst := by rw [List.map_fst_zip h]
  unfold posScores
  rw [List.length_map]
  conv_lhs => rw [this, List.filter_map, List.length_map]
  rfl

theorem length_split {gold pred : List ℝ} (hlen : gold.length ≤ pred.length) (h : ∀ g ∈ gold, g = 0 ∨ g = 1) :
    gold.length = (posScores gold pred).length + (negScores gold pred).length := by
  have h1 := cntPos_pts gold pred
  have h2 := cntNeg_pts (pred := pred) h
  rw [← h1, ← h2]
  have : (ptsOf gold pred).length = gold.length := by
    unfold ptsOf
    rw [List.length_map, List.length_zip]
    omega
  rw [← this]
  unfold cntPos cntNeg
  generalize ptsOf gold pred = l
  induction l with
  | nil => rfl
  | cons p l ih =>
    rw [List.filter_cons, List.filter_cons]
    by_cases hp : p.gold = 1 <;> simp [hp] at ih ⊢ <;> omega

/-- `auc` on valid data in terms of the sorted records. -/
theorem auc_eq {gold pred : List ℝ} (hlen : gold.length ≤ pred.length) (h : ∀ g ∈ gold, g = 0 ∨ g = 1) :
    auc gold pred = .ok (((ptsOf gold pred).insertionSort Pt.le).foldl
      (aucStep (posScores gold pred).length (negScores gold pred).length)
      ⟨1, 1, (posScores gold pred).length, (negScores gold pred).length, 0⟩).auc := by
  unfold auc
  simp only []
  rw [pointSet_ok hlen h, ok_bind, filter_zip_length hlen]
  have e : (gold.length : ℝ) - ((posScores gold pred).length : ℝ) = ((negScores gold pred).length : ℝ) := by
    rw [length_split hlen h]; push_cast; ring
  rw [e]
  rfl

theorem cnt_perm {l l' : List Pt} (h : l.Perm l') : cntPos l = cntPos l' ∧ cntNeg l = cntNeg l' :=
  ⟨(h.filter _).length_eq, (h.filter _).length_eq⟩

/-- **C65** (the part that holds) On valid data with both classes, `auc` is the fraction of (negative, positive) pairs in
which the positive item's score is *not lower*: ties count one. Not proved, because false (`C65_refuted`): that ties count
one half. -/
theorem C65_value_partial {gold pred : List ℝ} (hlen : gold.length = pred.length) (h : ∀ g ∈ gold, g = 0 ∨ g = 1)
    (hp : posScores gold pred ≠ []) (hn : negScores gold pred ≠ []) :
    auc gold pred = .ok (pairAverage fullTies (negScores gold pred) (posScores gold pred)) := by
  rw [auc_eq hlen.le h]
  have hP : (0 : ℝ) < (posScores gold pred).length := by exact_mod_cast List.length_pos_iff.2 hp
  have hN : (0 : ℝ) < (negScores gold pred).length := by exact_mod_cast List.length_pos_iff.2 hn
  have hperm := List.perm_insertionSort Pt.le (ptsOf gold pred)
  have hc := cnt_perm hperm
  rw [aucLoop hP hN]
  · congr 1
    simp only [zero_add]
    rw [laterPos_sorted (List.pairwise_insertionSort _ _)
      (fun p hp => pts_gold h p (hperm.mem_iff.1 hp))]
    unfold pairAverage
    congr 1
    rw [← neg_of_pts, ← pos_of_pts, List.map_map]
    have e : ∀ n : Pt, ((((ptsOf gold pred).insertionSort Pt.le).filter (fun p => decide (p.gold = 1))).map
        (fun p => fullTies n.score p.score)).sum =
        ((((ptsOf gold pred).filter (fun p => decide (p.gold = 1))).map Pt.score).map
          (fun p => fullTies n.score p)).sum := by
      intro n
      rw [List.map_map]
      exact ((hperm.filter _).map _).sum_eq
    simp only [e]
    exact ((hperm.filter _).map _).sum_eq
  · rw [hc.1, cntPos_pts]
  · rw [hc.2, cntNeg_pts h]
  · simp only []; rw [div_self hP.ne']
  · simp only []; rw [div_self hN.ne']

/-- **C65** (the part that holds) Without a tie between a positive and a negative item, `auc` is the area under the ROC
curve. -/
theorem C65_no_ties_partial {gold pred : List ℝ} (hlen : gold.length = pred.length) (h : ∀ g ∈ gold, g = 0 ∨ g = 1)
    (hp : posScores gold pred ≠ []) (hn : negScores gold pred ≠ [])
    (hties : ∀ a ∈ negScores gold pred, ∀ b ∈ posScores gold pred, a ≠ b) :
    auc gold pred = .ok (pairAverage halfTies (negScores gold pred) (posScores gold pred)) := by
  rw [C65_value_partial hlen h hp hn]
  congr 1
  unfold pairAverage
  congr 2
  apply List.map_congr_left
  intro a ha
  congr 1
  apply List.map_congr_left
  intro b hb
  unfold fullTies halfTies
  rcases lt_trichotomy a b with hab | hab | hab
  · simp [hab, hab.le]
  · exact absurd hab (hties a ha b hb)
  · simp [not_le.2 hab, not_lt.2 hab.le, hab.ne']

/-- **C65** Data without negative items gives 0, data with negative but without positive items gives 1. -/
theorem C65_one_class {gold pred : List ℝ} (hlen : gold.length = pred.length) (h : ∀ g ∈ gold, g = 0 ∨ g = 1) :
    (negScores gold pred = [] → auc gold pred = .ok 0) ∧
    (negScores gold pred ≠ [] → posScores gold pred = [] → auc gold pred = .ok 1) := by
  have hperm := List.perm_insertionSort Pt.le (ptsOf gold pred)
  have hc := cnt_perm hperm
  constructor
  · intro hn
    rw [auc_eq hlen.le h, aucLoop_noNeg]
    rw [hc.2, cntNeg_pts h, hn]
    rfl
  · intro hn hp
    have hN : (0 : ℝ) < (negScores gold pred).length := by exact_mod_cast List.length_pos_iff.2 hn
    rw [auc_eq hlen.le h, aucLoop_noPos hN]
    · rw [hc.2, cntNeg_pts h]
      simp only [zero_add]
      rw [div_self hN.ne']
    · rw [hc.1, cntPos_pts, hp]; rfl
    · simp only []; rw [hc.2, cntNeg_pts h]
    · rfl
    · simp only []; rw [div_self hN.ne']

theorem pairAverage_range {neg pos : List ℝ} (hp : pos ≠ []) (hn : neg ≠ []) :
    0 ≤ pairAverage fullTies neg pos ∧ pairAverage fullTies neg pos ≤ 1 := by
  have hP : (0 : ℝ) < pos.length := by exact_mod_cast List.length_pos_iff.2 hp
  have hN : (0 : ℝ) < neg.length := by exact_mod_cast List.length_pos_iff.2 hn
  have inner : ∀ n, 0 ≤ (pos.map (fun p => fullTies n p)).sum ∧ (pos.map (fun p => fullTies n p)).sum ≤ pos.length := by
    intro n
    constructor
    · apply List.sum_nonneg
      intro x hx
      obtain ⟨p, _, rfl⟩ := List.mem_map.1 hx
      unfold fullTies
      split <;> norm_num
    · have := List.sum_le_card_nsmul (pos.map (fun p => fullTies n p)) (1 : ℝ) (by
        intro x hx
        obtain ⟨p, _, rfl⟩ := List.mem_map.1 hx
        unfold fullTies
        split <;> norm_num)
      simpa using this
  unfold pairAverage
  constructor
  · apply div_nonneg _ (by positivity)
    apply List.sum_nonneg
    intro x hx
    obtain ⟨n, _, rfl⟩ := List.mem_map.1 hx
    exact (inner n).1
  · rw [div_le_one (by positivity)]
    have := List.sum_le_card_nsmul (neg.map (fun n => (pos.map (fun p => fullTies n p)).sum)) (pos.length : ℝ) (by
      intro x hx
      obtain ⟨n, _, rfl⟩ := List.mem_map.1 hx
      exact (inner n).2)
    simpa using this

/-- The value of `auc` depends only on the two score lists. -/
theorem auc_cases {gold pred : List ℝ} (hlen : gold.length = pred.length) (h : ∀ g ∈ gold, g = 0 ∨ g = 1) :
    auc gold pred = .ok (if negScores gold pred = [] then 0 else if posScores gold pred = [] then 1 else
      pairAverage fullTies (negScores gold pred) (posScores gold pred)) := by
  by_cases hn : negScores gold pred = []
  · rw [if_pos hn, (C65_one_class hlen h).1 hn]
  · by_cases hp : posScores gold pred = []
    · rw [if_neg hn, if_pos hp, (C65_one_class hlen h).2 hn hp]
    · rw [if_neg hn, if_neg hp, C65_value_partial hlen h hp hn]

/-- **C65** On valid data the result lies in `[0, 1]`. -/
theorem C65_range {gold pred : List ℝ} (hlen : gold.length = pred.length) (h : ∀ g ∈ gold, g = 0 ∨ g = 1) :
    ∃ v, auc gold pred = .ok v ∧ 0 ≤ v ∧ v ≤ 1 := by
  refine ⟨_, auc_cases hlen h, ?_⟩
  split
  · exact ⟨le_rfl, zero_le_one⟩
  · split
    · exact ⟨zero_le_one, le_rfl⟩
    · rename_i hn hp
      exact pairAverage_range hp hn

theorem pairAverage_perm {w : ℝ → ℝ → ℝ} {neg neg' pos pos' : List ℝ} (h1 : neg.Perm neg') (h2 : pos.Perm pos') :
    pairAverage w neg pos = pairAverage w neg' pos' := by
  unfold pairAverage
  rw [h1.length_eq, h2.length_eq]
  congr 1
  have : (fun n => (pos.map (fun p => w n p)).sum) = fun n => (pos'.map (fun p => w n p)).sum := by
    funext n
    exact (h2.map _).sum_eq
  rw [this]
  exact (h1.map _).sum_eq

/-- **C65** The result does not depend on the order of the data: re-ordering the (gold, score) pairs changes nothing, for
valid and for invalid data. -/
theorem C65_order_invariant {gold pred gold' pred' : List ℝ} (hlen : gold.length = pred.length)
    (hlen' : gold'.length = pred'.length) (hperm : (gold.zip pred).Perm (gold'.zip pred')) :
    auc gold pred = auc gold' pred' := by
  have e1 : (gold.zip pred).map Prod.fst = gold := List.map_fst_zip hlen.le
  have e2 : (gold'.zip pred').map Prod.fst = gold' := List.map_fst_zip hlen'.le
  have hg : gold.Perm gold' := by rw [← e1, ← e2]; exact hperm.map _
  by_cases h : ∀ g ∈ gold, g = 0 ∨ g = 1
  · have h' : ∀ g ∈ gold', g = 0 ∨ g = 1 := fun g hg' => h g (hg.mem_iff.2 hg')
    rw [auc_cases hlen h, auc_cases hlen' h']
    have hpos : (posScores gold pred).Perm (posScores gold' pred') := (hperm.filter _).map _
    have hneg : (negScores gold pred).Perm (negScores gold' pred') := (hperm.filter _).map _
    have hn : negScores gold pred = [] ↔ negScores gold' pred' = [] := by
      rw [← List.length_eq_zero_iff, hneg.length_eq, List.length_eq_zero_iff]
    have hp : posScores gold pred = [] ↔ posScores gold' pred' = [] := by
      rw [← List.length_eq_zero_iff, hpos.length_eq, List.length_eq_zero_iff]
    simp only [hn, hp, pairAverage_perm hneg hpos]
  · push Not at h
    unfold auc
    simp only []
    rw [pointSet_bad hlen.le h, pointSet_bad hlen'.le]
    · rfl
    · obtain ⟨g, hg', hx⟩ := h
      exact ⟨g, hg.mem_iff.1 hg', hx⟩

/-- **C65** Strictly increasing transformations of the scores change nothing. -/
theorem C65_monotone_invariant {gold pred : List ℝ} (hlen : gold.length = pred.length) (h : ∀ g ∈ gold, g = 0 ∨ g = 1)
    {f : ℝ → ℝ} (hf : StrictMono f) : auc gold (pred.map f) = auc gold pred := by
  rw [auc_cases (by simpa using hlen) h, auc_cases hlen h]
  have hpos : posScores gold (pred.map f) = (posScores gold pred).map f := by
    unfold posScores
    rw [List.zip_map_right, List.filter_map, List.map_map, List.map_map]
    rfl
  have hneg : negScores gold (pred.map f) = (negScores gold pred).map f := by
    unfold negScores
    rw [List.zip_map_right, List.filter_map, List.map_map, List.map_map]
    rfl
  rw [hpos, hneg]
  simp only [List.map_eq_nil_iff]
  congr 3
  unfold pairAverage
  rw [List.length_map, List.length_map, List.map_map]
  congr 2
  apply List.map_congr_left
  intro n _
  simp only [Function.comp, List.map_map]
  congr 1
  apply List.map_congr_left
  intro p _
  simp only [Function.comp, fullTies, hf.le_iff_le]

/-- **C65** A gold value other than 0 and 1 raises `ValueError`. -/
theorem C65_invalid_gold {gold pred : List ℝ} (hlen : gold.length = pred.length) (h : ∃ g ∈ gold, g ≠ 0 ∧ g ≠ 1) :
    auc gold pred = .error .valueError := by
  unfold auc
  simp only []
  rw [pointSet_bad hlen.le h]
  rfl

/-- **C65** (refutation) A tie counts one, not one half. -/
theorem C65_refuted : auc [0, 1] [5, 5] = .ok 1 ∧
    pairAverage halfTies (negScores [0, 1] [5, 5]) (posScores [0, 1] [5, 5]) = 1 / 2 := by
  have hp : posScores [0, 1] [5, 5] = [5] := by simp [posScores]
  have hn : negScores [0, 1] [5, 5] = [5] := by simp [negScores]
  constructor
  · rw [C65_value_partial (gold := [0, 1]) (pred := [5, 5]) rfl (by simp) (by rw [hp]; simp) (by rw [hn]; simp), hp, hn]
    simp [pairAverage, fullTies]
  · rw [hp, hn]
    simp [pairAverage, halfTies]

/-- Data with both classes and no ties. -/
example : (∀ g ∈ [0, 1, 1, (0 : ℝ)], g = 0 ∨ g = 1) ∧ posScores [0, 1, 1, 0] [1, 3, 2, 4] = [3, 2] ∧
    negScores [0, 1, 1, 0] [1, 3, 2, 4] = [1, 4] ∧ ∀ a ∈ [1, (4 : ℝ)], ∀ b ∈ [3, (2 : ℝ)], a ≠ b := by
  refine ⟨by simp, by simp [posScores], by simp [negScores], ?_⟩
  intro a ha b hb
  simp only [List.mem_cons, List.not_mem_nil, or_false] at ha hb
  rcases ha with rfl | rfl <;> rcases hb with rfl | rfl <;> norm_num

/-! ## C66 -/

/-- **C66** Arrays of different length raise `ValueError`, whatever the measure. -/
theorem C66_length_mismatch (lib : StatsLib) {gold pred : List ℝ} (h : gold.length ≠ pred.length) (m : List Char) :
    score lib gold pred m = .error .valueError := by
  unfold score; rw [if_pos h]

/-- **C66** On arrays of equal length each known measure is the corresponding function of the two arrays, in that order,
and every other name raises `NotImplementedError`. -/
theorem C66_dispatch (lib : StatsLib) {gold pred : List ℝ} (h : gold.length = pred.length) :
    score lib gold pred "pearson".toList = lib.pearson gold pred ∧
    score lib gold pred "spearman".toList = lib.spearman gold pred ∧
    score lib gold pred "auc".toList = auc gold pred ∧
    ∀ m, m ∉ ["pearson".toList, "spearman".toList, "auc".toList] →
      score lib gold pred m = .error .notImplementedError := by
  unfold score
  simp only [h, ne_eq, not_true_eq_false, if_false]
  refine ⟨if_pos (by decide), ?_, ?_, ?_⟩
  · rw [if_neg (by decide), if_pos (by decide)]
  · rw [if_neg (by decide), if_neg (by decide), if_pos (by decide)]
  · intro m hm
    simp only [List.mem_cons, List.not_mem_nil, or_false, not_or] at hm
    exact (if_neg hm.1).trans ((if_neg hm.2.1).trans (if_neg hm.2.2))

example : "kendall".toList ∉ ["pearson".toList, "spearman".toList, "auc".toList] := by decide

end Dissect
