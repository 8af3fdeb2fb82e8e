import Verif.Props.Twice
import Verif.Props.Invariance
import Verif.Props.SvdBest

/-! # C144: what selecting features does to the similarities and to the counts -/

namespace Dissect
open Finset
noncomputable section
variable {κ : Type} [DecidableEq κ]

theorem sum_selected {sel : List ℕ} (hd : sel.Nodup) (g : ℕ → ℝ) :
    ∑ t ∈ range sel.length, g (sel.getD t 0) = ∑ x ∈ sel.toFinset, g x := by
  rw [List.sum_toFinset g hd, Finset.sum_range, ← Fin.sum_univ_fun_getElem]
  refine Finset.sum_congr rfl fun i _ => ?_
  rw [getD_of_lt 0 i.2]

theorem selCols_getD {A : Mat ℝ} {sel : List ℕ} {t : ℕ} (ht : t < sel.length) (i : ℕ) :
    (A.selCols sel).get i t = A.get i (sel.getD t 0) := by
  rw [getD_of_lt 0 ht]
  exact Mat.selCols_get_some (List.getElem?_eq_getElem ht) i

/-- A sum over the columns of the reduced matrix is a sum over the columns kept. -/
theorem sum_selCols {A : Mat ℝ} {sel : List ℕ} (hd : sel.Nodup) (i j : ℕ) (g : ℝ → ℝ → ℝ) :
    ∑ t ∈ range sel.length, g ((A.selCols sel).get i t) ((A.selCols sel).get j t) =
      ∑ x ∈ sel.toFinset, g (A.get i x) (A.get j x) := by
  rw [← sum_selected hd (fun x => g (A.get i x) (A.get j x))]
  refine Finset.sum_congr rfl fun t ht => ?_
  rw [selCols_getD (Finset.mem_range.1 ht), selCols_getD (Finset.mem_range.1 ht)]

theorem sel_subset {c : Crit} {A : Mat ℝ} {k : ℕ} {sel : List ℕ} (h : BestColumns c A k sel) :
    sel.toFinset ⊆ range A.nc := fun x hx => Finset.mem_range.2 (h.inRange x (List.mem_toFinset.1 hx))

/-- Leaving out columns in which both vectors are zero changes no measure. -/
theorem simVal_selCols {A : Mat ℝ} {sel : List ℕ} (hd : sel.Nodup) (hs : ∀ x ∈ sel, x < A.nc) (i j : ℕ)
    (h0 : ∀ x, x < A.nc → x ∉ sel → A.get i x = 0 ∧ A.get j x = 0) (sim : Sim) :
    simVal sim sel.length ((A.selCols sel).get i) ((A.selCols sel).get j) = simVal sim A.nc (A.get i) (A.get j) := by
  have key : ∀ g : ℝ → ℝ → ℝ, g 0 0 = 0 →
      ∑ t ∈ range sel.length, g ((A.selCols sel).get i t) ((A.selCols sel).get j t) =
        ∑ x ∈ range A.nc, g (A.get i x) (A.get j x) := by
    intro g hg
    rw [sum_selCols hd]
    refine Finset.sum_subset (fun x hx => Finset.mem_range.2 (hs x (List.mem_toFinset.1 hx))) fun x hx hn => ?_
    obtain ⟨e1, e2⟩ := h0 x (Finset.mem_range.1 hx) (fun h => hn (List.mem_toFinset.2 h))
    rw [e1, e2, hg]
  have k1 := key (fun a _ => a ^ 2) (by simp)
  have k2 := key (fun _ b => b ^ 2) (by simp)
  have k3 := key (fun a b => a * b) (by simp)
  have k4 := key (fun a b => (a - b) ^ 2) (by simp)
  have k5 := key (fun a _ => a) rfl
  have k6 := key (fun _ b => b) rfl
  have k7 := key (fun a b => if 0 < a * b then a + b else 0) (by simp)
  beta_reduce at k1 k2 k3 k4 k5 k6 k7
  cases sim <;> simp only [simVal, inner, len2, k1, k2, k3, k4, k5, k6, k7] <;> congr

/-- The size of the selected matrix and its rows. -/
theorem featsel_space {env : Env} {s s' : Space κ} {k : ℕ} {c : Crit} (h : s.apply env (.featsel k c) = .ok s') :
    s'.WF ∧ s'.id2row = s.id2row ∧ ∃ sel, BestColumns c s.mat.val k sel ∧ s'.mat.val = s.mat.val.selCols sel ∧
      s'.mat.nc = sel.length := by
  obtain ⟨sel, hb, hm, hrows, _⟩ := featsel_result h
  obtain ⟨_, _, _, _, _, _, _, _, _, hwf, _⟩ := apply_eq_ok h
  exact ⟨hwf, hrows, sel, hb, by rw [hm], by rw [hm]; rfl⟩

/-- **C144** selecting features never makes two words less similar by Euclidean similarity, whatever the criterion. -/
theorem C144_never_apart (env : Env) (s s' : Space κ) (k : ℕ) (hk : 0 < k) (c : Crit) (hwf : s.WF) (hc : 0 < s.mat.nc)
    (h : s.apply env (.featsel k c) = .ok s') (w1 w2 : κ) (h1 : w1 ∈ s.id2row) (h2 : w2 ∈ s.id2row) :
    ∃ x y, s.getSim w1 w2 .euclid none = .ok x ∧ s'.getSim w1 w2 .euclid none = .ok y ∧ x ≤ y := by
  obtain ⟨hwf', hrows, sel, hb, hm, hnc⟩ := featsel_space h
  obtain ⟨i, hi⟩ := Space.hasWord_of_mem h1
  obtain ⟨j, hj⟩ := Space.hasWord_of_mem h2
  have hc' : 0 < s'.mat.nc := by
    rw [hnc, hb.count]
    exact Nat.lt_min.2 ⟨hk, hc⟩
  refine ⟨_, _, Space.getSim_words hwf hc hi hj .euclid,
    Space.getSim_words hwf' hc' (by unfold Space.HasWord; rw [hrows]; exact hi)
      (by unfold Space.HasWord; rw [hrows]; exact hj) .euclid, ?_⟩
  simp only [simVal]
  refine one_div_le_one_div_of_le (by unfold len2; positivity) (add_le_add_right ?_ _)
  unfold len2
  refine Real.sqrt_le_sqrt ?_
  rw [hm, hnc, sum_selCols hb.distinct i j (fun a b => (a - b) ^ 2)]
  exact Finset.sum_le_sum_of_subset_of_nonneg (sel_subset hb) fun _ _ _ => sq_nonneg _

/-- Column `x` of the matrix has an entry other than zero. -/
def NonZeroCol (A : Mat ℝ) (x : ℕ) : Prop := ∃ i, i < A.nr ∧ A.get i x ≠ 0

theorem colQuantity_pos {c : Crit} {A : Mat ℝ} (hs : c = .sum → NonNegative A) {x : ℕ} (hx : x < A.nc) :
    0 ≤ colQuantity c A x ∧ (0 < colQuantity c A x ↔ NonZeroCol A x) := by
  cases c with
  | length =>
    refine ⟨Real.sqrt_nonneg _, ?_⟩
    simp only [colQuantity, Real.sqrt_pos]
    constructor
    · intro h
      by_contra hn
      unfold NonZeroCol at hn
      push Not at hn
      exact h.ne' (Finset.sum_eq_zero fun i hi => by rw [hn i (Finset.mem_range.1 hi)]; simp)
    · rintro ⟨i, hi, hne⟩
      exact Finset.sum_pos' (fun _ _ => sq_nonneg _) ⟨i, Finset.mem_range.2 hi, by positivity⟩
  | sum =>
    have hn := hs rfl
    refine ⟨Finset.sum_nonneg fun i hi => hn i x (Finset.mem_range.1 hi) hx, ?_⟩
    simp only [colQuantity]
    constructor
    · intro h
      by_contra hn
      unfold NonZeroCol at hn
      push Not at hn
      exact h.ne' (Finset.sum_eq_zero fun i hi => hn i (Finset.mem_range.1 hi))
    · rintro ⟨i, hi, hne⟩
      exact Finset.sum_pos' (fun i hi => hn i x (Finset.mem_range.1 hi) hx)
        ⟨i, Finset.mem_range.2 hi, lt_of_le_of_ne (hn i x hi hx) hne.symm⟩

/-- If at most `k` columns are not zero, no such column is left out. -/
theorem BestColumns.dropped_zero {c : Crit} {A : Mat ℝ} {k : ℕ} {sel : List ℕ} (hb : BestColumns c A k sel)
    (hs : c = .sum → NonNegative A) (hk : ∀ T : Finset ℕ, (∀ x ∈ T, x < A.nc ∧ NonZeroCol A x) → T.card ≤ k) {x : ℕ}
    (hx : x < A.nc) (hn : x ∉ sel) : ¬ NonZeroCol A x := by
  intro hnz
  have hpos := (colQuantity_pos hs hx).2.2 hnz
  have hall : ∀ y ∈ insert x sel.toFinset, y < A.nc ∧ NonZeroCol A y := by
    intro y hy
    rcases Finset.mem_insert.1 hy with rfl | hy
    · exact ⟨hx, hnz⟩
    · have hy' := List.mem_toFinset.1 hy
      refine ⟨hb.inRange y hy', (colQuantity_pos hs (hb.inRange y hy')).2.1 ?_⟩
      rcases hb.best y hy' x hx hn with h | ⟨h, _⟩ <;> linarith
  have hcard := hk _ hall
  have hle : (insert x sel.toFinset).card ≤ A.nc := by
    have := Finset.card_le_card (s := insert x sel.toFinset) (t := Finset.range A.nc)
      (fun y hy => Finset.mem_range.2 (hall y hy).1)
    rwa [Finset.card_range] at this
  rw [Finset.card_insert_of_notMem (fun h => hn (List.mem_toFinset.1 h)),
    List.toFinset_card_of_nodup hb.distinct, hb.count] at hcard hle
  omega

/-- **C144** if at most `k` columns have an entry other than zero – in particular if there are at most `k` columns –
selecting `k` features changes no similarity and no neighbour list, by any of the four measures. -/
theorem C144_enough_features (env : Env) (s s' : Space κ) (k : ℕ) (hk : 0 < k) (c : Crit) (hwf : s.WF)
    (hc : 0 < s.mat.nc) (h : s.apply env (.featsel k c) = .ok s') (hs : c = .sum → NonNegative s.mat.val)
    (h0 : ∀ T : Finset ℕ, (∀ x ∈ T, x < s.mat.nc ∧ NonZeroCol s.mat.val x) → T.card ≤ k) (sim : Sim) :
    (∀ w1 w2, s'.getSim w1 w2 sim none = s.getSim w1 w2 sim none) ∧
    ∀ w n, s'.getNeighbours w n sim none = s.getNeighbours w n sim none := by
  obtain ⟨hwf', hrows, sel, hb, hm, hnc⟩ := featsel_space h
  have hc' : 0 < s'.mat.nc := by
    rw [hnc, hb.count]
    exact Nat.lt_min.2 ⟨hk, hc⟩
  have key : ∀ w1 w2, s'.getSim w1 w2 sim none = s.getSim w1 w2 sim none := by
    intro w1 w2
    by_cases hw : w1 ∈ s.id2row ∧ w2 ∈ s.id2row
    · obtain ⟨i, hi⟩ := Space.hasWord_of_mem hw.1
      obtain ⟨j, hj⟩ := Space.hasWord_of_mem hw.2
      have hri : ∀ i w, s.HasWord i w → i < s.mat.val.nr := by
        intro i w hi
        have : s.mat.val.nr = s.id2row.length := hwf.nrows
        rw [this]
        exact (List.getElem?_eq_some_iff.1 hi).1
      rw [Space.getSim_words hwf hc hi hj,
        Space.getSim_words hwf' hc' (by unfold Space.HasWord; rw [hrows]; exact hi)
          (by unfold Space.HasWord; rw [hrows]; exact hj),
        hm, hnc, simVal_selCols hb.distinct hb.inRange i j (fun x hx hn => ?_) sim]
      have := hb.dropped_zero hs h0 hx hn
      unfold NonZeroCol at this
      push Not at this
      exact ⟨this i (hri i _ hi), this j (hri j _ hj)⟩
    · have hm1 : w1 ∉ s.id2row ∨ w2 ∉ s.id2row := by tauto
      rw [C08_missing s s none sim w1 w2 rfl hwf hwf hc hm1,
        C08_missing s' s' none sim w1 w2 rfl hwf' hwf' hc' (by rw [hrows]; exact hm1)]
  refine ⟨key, fun w n => ?_⟩
  by_cases hw : w ∈ s.id2row
  · have hlen : 0 < s.id2row.length := List.length_pos_of_mem hw
    obtain ⟨r1, sc1, e1, e2, e3⟩ := C09_top_n s s none sim w n rfl hwf hwf hc rfl hw hlen
    obtain ⟨r2, sc2, f1, f2, f3⟩ := C09_top_n s' s' none sim w n rfl hwf' hwf' hc' rfl (by rw [hrows]; exact hw)
      (by rw [hrows]; exact hlen)
    rw [hrows] at f2 f3
    rw [e1, f1, e3.unique (fun x hx => ?_) f3]
    have := key w x
    rw [e2 x hx, f2 x hx] at this
    exact (ok_inj this).symm
  · rw [C09_unknown_word s none sim w n hwf hw, C09_unknown_word s' none sim w n hwf' (by rw [hrows]; exact hw)]

theorem BestColumns.most {c : Crit} {A : Mat ℝ} {k : ℕ} {sel : List ℕ} (hb : BestColumns c A k sel) (q : ℕ → ℝ)
    (hq : ∀ x y, colQuantity c A y ≤ colQuantity c A x → q y ≤ q x) (T : Finset ℕ) (hT : ∀ x ∈ T, x < A.nc)
    (hcard : T.card = sel.length) : ∑ x ∈ T, q x ≤ ∑ x ∈ sel.toFinset, q x := by
  set S := sel.toFinset with hS
  have hSc : S.card = sel.length := List.toFinset_card_of_nodup hb.distinct
  have h1 : ∑ x ∈ T, q x = ∑ x ∈ T ∩ S, q x + ∑ x ∈ T \ S, q x := (Finset.sum_inter_add_sum_sdiff T S q).symm
  have h2 : ∑ x ∈ S, q x = ∑ x ∈ S ∩ T, q x + ∑ x ∈ S \ T, q x := (Finset.sum_inter_add_sum_sdiff S T q).symm
  have hcd : (T \ S).card = (S \ T).card := by
    have e1 := Finset.card_sdiff_add_card_inter T S
    have e2 := Finset.card_sdiff_add_card_inter S T
    rw [Finset.inter_comm] at e2
    omega
  rw [h1, h2, Finset.inter_comm S T]
  refine add_le_add_right ?_ _
  by_cases he : (S \ T).Nonempty
  · obtain ⟨x0, hx0, hmin⟩ := Finset.exists_min_image (S \ T) q he
    have hx0S := (Finset.mem_sdiff.1 hx0).1
    calc ∑ x ∈ T \ S, q x ≤ (T \ S).card • q x0 := by
          refine Finset.sum_le_card_nsmul _ _ _ fun y hy => hq _ _ ?_
          obtain ⟨hy1, hy2⟩ := Finset.mem_sdiff.1 hy
          rcases hb.best x0 (List.mem_toFinset.1 hx0S) y (hT y hy1) (fun h => hy2 (List.mem_toFinset.2 h)) with h | ⟨h, _⟩
          · exact h.le
          · exact h.le
      _ = (S \ T).card • q x0 := by rw [hcd]
      _ ≤ ∑ x ∈ S \ T, q x := Finset.card_nsmul_le_sum _ _ _ hmin
  · rw [Finset.not_nonempty_iff_eq_empty] at he
    rw [he, Finset.card_empty, Finset.card_eq_zero] at hcd
    rw [he, hcd]

/-- **C144** no other choice of the same number of columns keeps more: with the criterion "sum" no choice has a larger
total, with the criterion "length" none has a larger sum of squares. -/
theorem C144_keeps_most (env : Env) (s s' : Space κ) (k : ℕ) (c : Crit) (h : s.apply env (.featsel k c) = .ok s')
    (T : Finset ℕ) (hT : ∀ x ∈ T, x < s.mat.nc) (hcard : T.card = s'.mat.nc) :
    (c = .sum → ∑ i ∈ range s.mat.nr, ∑ x ∈ T, s.mat.val.get i x ≤
      ∑ i ∈ range s.mat.nr, ∑ j ∈ range s'.mat.nc, s'.mat.val.get i j) ∧
    (c = .length → ∑ i ∈ range s.mat.nr, ∑ x ∈ T, s.mat.val.get i x ^ 2 ≤
      ∑ i ∈ range s.mat.nr, ∑ j ∈ range s'.mat.nc, s'.mat.val.get i j ^ 2) := by
  obtain ⟨_, _, sel, hb, hm, hnc⟩ := featsel_space h
  rw [hnc] at hcard ⊢
  rw [hm]
  constructor
  · rintro rfl
    have := hb.most (fun x => ∑ i ∈ range s.mat.nr, s.mat.val.get i x) (fun x y hxy => hxy) T hT hcard
    rw [Finset.sum_comm] at this
    refine this.trans (le_of_eq ?_)
    rw [Finset.sum_comm]
    exact Finset.sum_congr rfl fun i _ => (sum_selCols hb.distinct i i (fun a _ => a)).symm
  · rintro rfl
    have := hb.most (fun x => ∑ i ∈ range s.mat.nr, s.mat.val.get i x ^ 2) (fun x y hxy => ?_) T hT hcard
    · rw [Finset.sum_comm] at this
      refine this.trans (le_of_eq ?_)
      rw [Finset.sum_comm]
      exact Finset.sum_congr rfl fun i _ => (sum_selCols hb.distinct i i (fun a _ => a ^ 2)).symm
    · exact (Real.sqrt_le_sqrt_iff (Finset.sum_nonneg fun _ _ => sq_nonneg _)).1 hxy

/-- Non-vacuity of C144: two of the three columns of the space of counts; and three of three. -/
example (env : Env) : ∃ s s' s3 : Space String, s.apply env (.featsel 2 .length) = .ok s' ∧
    (∃ x y, s.getSim "dog" "cat" .euclid none = .ok x ∧ s'.getSim "dog" "cat" .euclid none = .ok y ∧ x ≤ y) ∧
    s.apply env (.featsel 3 .length) = .ok s3 ∧ s3.getNeighbours "dog" 2 .lin none = s.getNeighbours "dog" 2 .lin none ∧
    ∑ i ∈ range 2, ∑ x ∈ {0, 1}, s.mat.val.get i x ^ 2 ≤
      ∑ i ∈ range 2, ∑ j ∈ range s'.mat.nc, s'.mat.val.get i j ^ 2 := by
  obtain ⟨s, hs⟩ := (C01_accepts_iff (exMat .sparse) ["dog", "cat"] ["a", "b", "c"] none none [] none).2
    ⟨by simp, by simp, by simp, by simp, rfl, fun _ => rfl, by simp⟩
  obtain ⟨hwf, hm, hr, _, _, hsh, _⟩ := C01_result _ _ _ _ _ _ _ s hs
  have h1 : 0 < s.mat.nr := by rw [hm]; simp [exMat, TMat.nr]
  have h2 : 0 < s.mat.nc := by rw [hm]; simp [exMat, TMat.nc]
  have hn3 : s.mat.nc = 3 := by rw [hm]; rfl
  have hn2 : s.mat.nr = 2 := by rw [hm]; rfl
  have he : s.elemShape.length ≤ 1 := by rw [hsh]; simp
  obtain ⟨s', hs'⟩ := (C05_apply_total env s hwf h1 h2).2 2 .length (by omega) he
  obtain ⟨s3, hs3⟩ := (C05_apply_total env s hwf h1 h2).2 3 .length (by omega) he
  obtain ⟨b1, b2, _⟩ := C05_featsel_keeps_labels env s s' 2 .length hwf hs'
  refine ⟨s, s', s3, hs', C144_never_apart env s s' 2 (by omega) _ hwf h2 hs' _ _ (by rw [hr]; simp) (by rw [hr]; simp),
    hs3, (C144_enough_features env s s3 3 (by omega) _ hwf h2 hs3 (fun h => by cases h) (fun T hT => ?_) .lin).2 _ _, ?_⟩
  · have := Finset.card_le_card (s := T) (t := range s.mat.nc) (fun y hy => Finset.mem_range.2 (hT y hy).1)
    rw [Finset.card_range, hn3] at this
    exact this
  · have := (C144_keeps_most env s s' 2 .length hs' {0, 1} (by intro x hx; simp at hx; omega)
      (by rw [b2, hn3]; rfl)).2 rfl
    rw [hn2] at this
    exact this

end
end Dissect
