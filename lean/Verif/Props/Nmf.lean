import Verif.Lemmas.Nmf
import Verif.Props.Scaling

/-! # Non-negative matrix factorisation (C22, C23) -/

namespace Dissect
open Finset

/-- What `np.random.random_integers` can return in `v_col_init`: the right number of row and column numbers, all in
range. -/
structure Chance.Valid (ch : Chance) (m : TMat ℝ) : Prop where
  colCount : ∀ i, (ch.cols i).length = m.nc / 5 + 1
  rowCount : ∀ i, (ch.rows i).length = m.nr / 5 + 1
  colRange : ∀ i, ∀ c ∈ ch.cols i, c < m.nc
  rowRange : ∀ i, ∀ r ∈ ch.rows i, r < m.nr

theorem selCols_nonneg {A : Mat ℝ} (h : NonNegative A) (cs : List ℕ) (hc : ∀ c ∈ cs, c < A.nc) {i : ℕ}
    (hi : i < A.nr) (j : ℕ) : 0 ≤ (A.selCols cs).get i j := by
  rw [Mat.selCols_get]
  cases e : cs[j]? with
  | none => exact le_rfl
  | some c => exact h i c hi (hc c (List.mem_of_getElem? e))

theorem selRows_nonneg {A : Mat ℝ} (h : NonNegative A) (rs : List ℕ) (hr : ∀ r ∈ rs, r < A.nr) (i : ℕ) {j : ℕ}
    (hj : j < A.nc) : 0 ≤ (A.selRows rs).get i j := by
  rw [Mat.selRows_get]
  cases e : rs[i]? with
  | none => exact le_rfl
  | some r => exact h r j (hr r (List.mem_of_getElem? e)) hj

theorem vColEntries_spec {m : TMat ℝ} {ch : Chance} (hch : ch.Valid m) (hm : NonNegative m.val)
    (hr : 0 < m.nr) (hc : 0 < m.nc) (p q : ℕ) (k : ℕ) :
    ∃ es, vColEntries m ch p q k = .ok es ∧ es.length = k ∧
      ∀ e ∈ es, (∀ x ∈ e.1, (0 : ℝ) ≤ x) ∧ ∀ x ∈ e.2, (0 : ℝ) ≤ x := by
  induction k with
  | zero => exact ⟨[], rfl, rfl, by simp⟩
  | succ k ih =>
    obtain ⟨es, h1, h2, h3⟩ := ih
    have e1 : m.getCols (ch.cols k) = .ok ⟨m.ty, m.val.selCols (ch.cols k)⟩ := by
      unfold TMat.getCols
      rw [if_pos (by
        rw [List.all_eq_true]
        intro c hcm
        simpa using hch.colRange k c hcm)]
      exact TMat.wrap_ok_pos hr (by simp [hch.colCount k])
    have e2 : m.getRows ((ch.rows k).map Int.ofNat) = .ok ⟨m.ty, m.val.selRows (ch.rows k)⟩ := by
      unfold TMat.getRows
      rw [TMat.normIdx_nat (hch.rowRange k)]
      exact TMat.wrap_ok_pos (by simp [hch.rowCount k]) hc
    refine ⟨_, by simp only [vColEntries, h1, e1, e2, ok_bind]; rfl, by simp [h2], ?_⟩
    intro e he
    rw [List.mem_append, List.mem_singleton] at he
    rcases he with he | rfl
    · exact h3 e he
    · constructor
      · intro x hx
        obtain ⟨r, hrm, rfl⟩ := List.mem_map.1 hx
        refine div_nonneg (Finset.sum_nonneg (fun j _ => ?_)) (Nat.cast_nonneg _)
        exact selCols_nonneg hm _ (hch.colRange k) (List.mem_range.1 hrm) j
      · intro x hx
        obtain ⟨c, hcm, rfl⟩ := List.mem_map.1 hx
        refine div_nonneg (Finset.sum_nonneg (fun i _ => ?_)) (Nat.cast_nonneg _)
        exact selRows_nonneg hm _ (hch.rowRange k) i (List.mem_range.1 hcm)

theorem getD_nonneg {l : List ℝ} (h : ∀ x ∈ l, (0 : ℝ) ≤ x) (i : ℕ) : 0 ≤ l.getD i 0 := by
  rw [List.getD]
  cases e : l[i]? with
  | none => exact le_rfl
  | some x => exact h x (List.mem_of_getElem? e)

theorem vColInit_spec {m : TMat ℝ} {ch : Chance} {k : ℕ} (hch : ch.Valid m) (hm : NonNegative m.val)
    (hr : 0 < m.nr) (hc : 0 < m.nc) (hk : 0 < k) :
    ∃ w h, vColInit m k ch = .ok (w, h) ∧ Factor m.ty m.nr k w ∧ Factor m.ty k m.nc h := by
  obtain ⟨es, h1, _, h3⟩ := vColEntries_spec hch hm hr hc (m.nc / 5 + 1) (m.nr / 5 + 1) k
  have hpair : ∀ i, (∀ x ∈ (es.getD i ([], [])).1, (0 : ℝ) ≤ x) ∧ ∀ x ∈ (es.getD i ([], [])).2, (0 : ℝ) ≤ x := by
    intro i
    rw [List.getD]
    cases e : es[i]? with
    | none => simp
    | some x => exact h3 x (List.mem_of_getElem? e)
  have e1 := TMat.ofNumpy_ok (ty := m.ty)
    (A := Mat.of m.nr k (fun r i => (es.getD i ([], [])).1.getD r 0)) hr hk
  have e2 := TMat.ofNumpy_ok (ty := m.ty)
    (A := Mat.of k m.nc (fun i c => (es.getD i ([], [])).2.getD c 0)) hk hc
  refine ⟨⟨m.ty, Mat.of m.nr k (fun r i => (es.getD i ([], [])).1.getD r 0)⟩,
    ⟨m.ty, Mat.of k m.nc (fun i c => (es.getD i ([], [])).2.getD c 0)⟩,
    by simp only [vColInit, h1, ok_bind, e1, e2]; rfl, ⟨rfl, rfl, rfl, ?_⟩, ⟨rfl, rfl, rfl, ?_⟩⟩
  · intro i j hi hj
    simp only
    rw [Mat.of_get_lt hi hj]
    exact getD_nonneg (hpair j).1 i
  · intro i j hi hj
    simp only
    rw [Mat.of_get_lt hi hj]
    exact getD_nonneg (hpair i).2 j

/-- **C22** for a non-negative matrix, all random choices and all behaviours of the clock, NMF computes two
non-negative factors of shapes `(rows, k)` and `(k, columns)`; the first is the reduced matrix. -/
theorem C22_factors (env : Env) (m : TMat ℝ) (k : ℕ) (ch : Chance) (hm : NonNegative m.val) (hr : 0 < m.nr)
    (hc : 0 < m.nc) (hk : 0 < k) (hch : ch.Valid m) :
    ∃ w0 h0 w h, vColInit m k ch = .ok (w0, h0) ∧ nmf m w0 h0 ch.timeout = .ok (w, h) ∧
      NonNegative w.val ∧ w.nr = m.nr ∧ w.nc = k ∧ NonNegative h.val ∧ h.nr = k ∧ h.nc = m.nc ∧
      (∀ p, pinv env h = .ok p → (DimRedT.nmf k ch).apply env m = .ok (w, p)) := by
  obtain ⟨w0, h0, hi, hw0, hh0⟩ := vColInit_spec hch hm hr hc hk
  obtain ⟨w, h, hn, hw, hh, _⟩ := nmf_spec m w0 h0 ch.timeout hr hk hc rfl rfl rfl hw0 hh0
  refine ⟨w0, h0, w, h, hi, hn, ?_, hw.nr_eq, hw.nc_eq, ?_, hh.nr_eq, hh.nc_eq, ?_⟩
  · intro i j hi hj
    exact hw.nonneg i j (by rw [← hw.nr_eq]; exact hi) (by rw [← hw.nc_eq]; exact hj)
  · intro i j hi hj
    exact hh.nonneg i j (by rw [← hh.nr_eq]; exact hi) (by rw [← hh.nc_eq]; exact hj)
  · intro p hp
    have hpos : m.assertPositive = .ok () := ((assertPositive_rows m).1).2 (fun i hi j hj => hm i j hi hj)
    simp only [DimRedT.apply, hpos, ok_bind, hi, hn, hp]
    rfl

/-- **C22** a negative entry is rejected with `ValueError`. -/
theorem C22_rejects_negative (env : Env) (m : TMat ℝ) (k : ℕ) (ch : Chance) (i j : ℕ) (hi : i < m.nr) (hj : j < m.nc)
    (hneg : m.val.get i j < 0) : (DimRedT.nmf k ch).apply env m = .error .valueError := by
  have : m.assertPositive = .error .valueError := by
    unfold TMat.assertPositive
    rw [if_neg]
    intro hall
    rw [List.all_eq_true] at hall
    have h1 := hall i (List.mem_range.2 hi)
    rw [List.all_eq_true] at h1
    have h2 := h1 j (List.mem_range.2 hj)
    simp only [decide_eq_true_eq] at h2
    linarith
  simp only [DimRedT.apply, this, error_bind]

/-- **C23** for any non-negative initial factors and any behaviour of the clock, the squared error of the factors
returned is at most that of the initial factors. -/
theorem C23_nmf_not_worse (v w0 h0 : TMat ℝ) (timeout : ℕ → Bool) (hr : 0 < v.nr) (hc : 0 < v.nc) (hk : 0 < w0.nc)
    (hwt : w0.ty = v.ty) (hht : h0.ty = v.ty) (hwr : w0.nr = v.nr) (hwh : h0.nr = w0.nc) (hhc : h0.nc = v.nc)
    (hw0 : NonNegative w0.val) (hh0 : NonNegative h0.val) :
    ∃ w h, nmf v w0 h0 timeout = .ok (w, h) ∧ NonNegative w.val ∧ NonNegative h.val ∧
      w.nr = v.nr ∧ w.nc = w0.nc ∧ h.nr = w0.nc ∧ h.nc = v.nc ∧
      ∑ i ∈ range v.nr, ∑ j ∈ range v.nc, (v.val.get i j - (w.val.mul h.val).get i j) ^ 2 ≤
      ∑ i ∈ range v.nr, ∑ j ∈ range v.nc, (v.val.get i j - (w0.val.mul h0.val).get i j) ^ 2 := by
  obtain ⟨w, h, hn, hw, hh, he⟩ := nmf_spec (k := w0.nc) v w0 h0 timeout hr hk hc rfl rfl rfl
    ⟨hwt, hwr, rfl, fun i j hi hj => hw0 i j (by show i < w0.nr; rw [hwr]; exact hi) hj⟩
    ⟨hht, hwh, hhc, fun i j hi hj => hh0 i j (by show i < h0.nr; rw [hwh]; exact hi) (by show j < h0.nc; rw [hhc]; exact hj)⟩
  refine ⟨w, h, hn, ?_, ?_, hw.nr_eq, hw.nc_eq, hh.nr_eq, hh.nc_eq, he⟩
  · intro i j hi hj
    exact hw.nonneg i j (by rw [← hw.nr_eq]; exact hi) (by rw [← hw.nc_eq]; exact hj)
  · intro i j hi hj
    exact hh.nonneg i j (by rw [← hh.nr_eq]; exact hi) (by rw [← hh.nc_eq]; exact hj)

/-- **C23** every half-iteration (`_nmf_nlssubprob` with `w_t` the transpose of `w`) returns a non-negative factor
that is not worse than the one it started from. The half-iteration for the other factor is the same call on the
transposed matrices, whose error is the same number (`sqErr_transpose`). -/
theorem C23_half_iteration (v w wt h0 : TMat ℝ) (hr : 0 < v.nr) (hc : 0 < v.nc) (hk : 0 < w.nc) (hwt : w.ty = v.ty)
    (hht : h0.ty = v.ty) (hwr : w.nr = v.nr) (hwh : h0.nr = w.nc) (hhc : h0.nc = v.nc) (htr : w.transpose = .ok wt)
    (hh0 : NonNegative h0.val) :
    ∃ h, nlsSubprob v w wt h0 = .ok h ∧ NonNegative h.val ∧ h.nr = h0.nr ∧ h.nc = h0.nc ∧
      ∑ i ∈ range v.nr, ∑ j ∈ range v.nc, (v.val.get i j - (w.val.mul h.val).get i j) ^ 2 ≤
      ∑ i ∈ range v.nr, ∑ j ∈ range v.nc, (v.val.get i j - (w.val.mul h0.val).get i j) ^ 2 := by
  have e := TMat.transpose_ok (s := w) (by rw [hwr]; exact hr) hk
  rw [htr] at e
  obtain ⟨h, h1, hF, he⟩ := nlsSubprob_spec (ty := v.ty) v w wt h0 hr hk hc rfl rfl rfl hwt hwr rfl
    (by rw [ok_inj e, hwt])
    ⟨hht, hwh, hhc, fun i j hi hj => hh0 i j (by show i < h0.nr; rw [hwh]; exact hi) (by show j < h0.nc; rw [hhc]; exact hj)⟩
  refine ⟨h, h1, ?_, hF.nr_eq.trans hwh.symm, hF.nc_eq.trans hhc.symm, he⟩
  intro i j hi hj
  exact hF.nonneg i j (by rw [← hF.nr_eq]; exact hi) (by rw [← hF.nc_eq]; exact hj)

/-- Non-vacuity for C22 and C23: a 2×3 matrix and factors of inner dimension 2. -/
example : ∃ (m w h : TMat ℝ) (ch : Chance), NonNegative m.val ∧ 0 < m.nr ∧ 0 < m.nc ∧ ch.Valid m ∧ w.ty = m.ty ∧
    w.nr = m.nr ∧ h.nr = w.nc ∧ 0 < w.nc ∧ h.nc = m.nc ∧ NonNegative w.val ∧ NonNegative h.val ∧
    m.val.get 1 2 = 3 := by
  refine ⟨⟨.sparse, Mat.of 2 3 (fun i j => (i + j : ℕ))⟩, ⟨.sparse, Mat.of 2 2 (fun _ _ => 1)⟩,
    ⟨.sparse, Mat.of 2 3 (fun _ _ => 1)⟩, ⟨fun _ => [2], fun _ => [1], fun _ => false⟩, ?_, by simp [TMat.nr],
    by simp [TMat.nc], ⟨by simp [TMat.nc], by simp [TMat.nr], by simp [TMat.nc], by simp [TMat.nr]⟩, rfl, rfl, rfl,
    by simp [TMat.nc], rfl, ?_, ?_, by norm_num [Mat.of_get]⟩
  · intro i j hi hj
    simp only [Mat.of_get]; split <;> positivity
  · intro i j hi hj
    simp only [Mat.of_get]; split <;> norm_num
  · intro i j hi hj
    simp only [Mat.of_get]; split <;> norm_num

end Dissect
