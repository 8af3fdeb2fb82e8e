import Verif.Props.SelectSim
import Verif.Props.RowLaws

/-! # C170: features that no word has -/

namespace Dissect
open Finset
noncomputable section
variable {κ : Type} [DecidableEq κ]

/-- The second matrix is the first one with further columns of zeros. -/
structure Padded (A B : Mat ℝ) : Prop where
  rows : B.nr = A.nr
  cols : A.nc ≤ B.nc
  same : ∀ i j, i < A.nr → j < A.nc → B.get i j = A.get i j
  zero : ∀ i j, i < A.nr → A.nc ≤ j → j < B.nc → B.get i j = 0

theorem Padded.get {A B : Mat ℝ} (h : Padded A B) (i j : ℕ) : B.get i j = A.get i j := by
  by_cases hi : i < A.nr
  · by_cases hj : j < A.nc
    · exact h.same i j hi hj
    · rw [A.get_col_oob i (not_lt.1 hj)]
      by_cases hj' : j < B.nc
      · exact h.zero i j hi (not_lt.1 hj) hj'
      · exact B.get_col_oob i (not_lt.1 hj')
  · rw [A.get_row_oob j (not_lt.1 hi), B.get_row_oob j (by rw [h.rows]; exact not_lt.1 hi)]

theorem Padded.of_get {A B : Mat ℝ} (h1 : B.nr = A.nr) (h2 : A.nc ≤ B.nc)
    (h : ∀ i j, i < A.nr → j < B.nc → B.get i j = A.get i j) : Padded A B :=
  ⟨h1, h2, fun i j hi hj => h i j hi (by omega), fun i j hi hj hj' => by
    rw [h i j hi hj', A.get_col_oob i hj]⟩

/-- Sums over the columns agree. -/
theorem Padded.sum {A B : Mat ℝ} (h : Padded A B) (i k : ℕ) (g : ℝ → ℝ → ℝ) (hg : g 0 0 = 0) :
    ∑ j ∈ range B.nc, g (B.get i j) (B.get k j) = ∑ j ∈ range A.nc, g (A.get i j) (A.get k j) := by
  simp only [h.get]
  refine (Finset.sum_subset (Finset.range_subset_range.2 h.cols) fun x _ hx => ?_).symm
  have hx' : A.nc ≤ x := by simpa using hx
  rw [A.get_col_oob i hx', A.get_col_oob k hx', hg]

theorem Padded.simVal {A B : Mat ℝ} (h : Padded A B) (i k : ℕ) (sim : Sim) :
    simVal sim B.nc (B.get i) (B.get k) = simVal sim A.nc (A.get i) (A.get k) := by
  have k1 := h.sum i k (fun a _ => a ^ 2) (by simp)
  have k2 := h.sum i k (fun _ b => b ^ 2) (by simp)
  have k3 := h.sum i k (fun a b => a * b) (by simp)
  have k4 := h.sum i k (fun a b => (a - b) ^ 2) (by simp)
  have k5 := h.sum i k (fun a _ => a) rfl
  have k6 := h.sum i k (fun _ b => b) rfl
  have k7 := h.sum i k (fun a b => if 0 < a * b then a + b else 0) (by simp)
  beta_reduce at k1 k2 k3 k4 k5 k6 k7
  cases sim <;> simp only [Dissect.simVal, inner, len2, k1, k2, k3, k4, k5, k6, k7] <;> congr

theorem Padded.rowSum {A B : Mat ℝ} (h : Padded A B) (i : ℕ) : B.rowSum i = A.rowSum i :=
  h.sum i i (fun a _ => a) rfl

theorem Padded.colSum {A B : Mat ℝ} (h : Padded A B) (j : ℕ) : B.colSum j = A.colSum j := by
  unfold Mat.colSum
  rw [h.rows]
  exact Finset.sum_congr rfl fun i _ => h.get i j

theorem Padded.total {A B : Mat ℝ} (h : Padded A B) : B.total = A.total := by
  have : ∀ i, ∑ j ∈ range B.nc, B.get i j = ∑ j ∈ range A.nc, A.get i j := fun i => h.sum i i (fun a _ => a) rfl
  unfold Mat.total
  rw [h.rows]
  exact Finset.sum_congr rfl fun i _ => this i

theorem Padded.epmi {A B : Mat ℝ} (h : Padded A B) (i j : ℕ) : epmiSpec B i j = epmiSpec A i j := by
  unfold epmiSpec
  rw [h.get, h.total, h.rowSum, h.colSum]

theorem Padded.ppmi {A B : Mat ℝ} (h : Padded A B) (i j : ℕ) : ppmiSpec B i j = ppmiSpec A i j := by
  unfold ppmiSpec
  rw [h.get, h.total, h.rowSum, h.colSum]

theorem Padded.rowQuantity {A B : Mat ℝ} (h : Padded A B) (c : Crit) (i : ℕ) :
    rowQuantity c B i = rowQuantity c A i := by
  cases c with
  | sum => exact h.sum i i (fun a _ => a) rfl
  | length => exact congrArg Real.sqrt (h.sum i i (fun a _ => a ^ 2) (by simp))

theorem Padded.matQuantity {A B : Mat ℝ} (h : Padded A B) (c : Crit) : matQuantity c B = matQuantity c A := by
  cases c with
  | sum =>
    unfold Dissect.matQuantity
    simp only [h.rows]
    exact Finset.sum_congr rfl fun i _ => h.sum i i (fun a _ => a) rfl
  | length =>
    unfold Dissect.matQuantity
    simp only [h.rows]
    exact congrArg Real.sqrt (Finset.sum_congr rfl fun i _ => h.sum i i (fun a _ => a ^ 2) (by simp))

theorem epmiSpec_zero {A : Mat ℝ} {i j : ℕ} (h : A.get i j = 0) : epmiSpec A i j = 0 ∧ ppmiSpec A i j = 0 := by
  unfold epmiSpec ppmiSpec
  simp [h]

/-- Two computations with corresponding formulas. -/
theorem Padded.yields {m m' r r' : TMat ℝ} {x x' : Py (TMat ℝ)} {f f' : ℕ → ℕ → ℝ} (h : Padded m.val m'.val)
    (hx : x = .ok r) (hx' : x' = .ok r') (hy : Yields x m.ty m.nr m.nc f) (hy' : Yields x' m'.ty m'.nr m'.nc f')
    (hf : ∀ i j, f' i j = f i j) (h0 : ∀ i j, m.val.get i j = 0 → f i j = 0) : Padded r.val r'.val := by
  obtain ⟨u, e1, _, e3, e4, e5⟩ := hy
  obtain ⟨u', e1', _, e3', e4', e5'⟩ := hy'
  obtain rfl := ok_inj (hx.symm.trans e1)
  obtain rfl := ok_inj (hx'.symm.trans e1')
  have n1 : r'.val.nr = r.val.nr := by
    show r'.nr = r.nr
    rw [e3, e3']; exact h.rows
  refine Padded.of_get n1 (by show r.nc ≤ r'.nc; rw [e4, e4']; exact h.cols) fun i j hi hj => ?_
  have hi1 : i < m.nr := by rw [← e3]; exact hi
  have hi' : i < m'.nr := by rw [show m'.nr = m.nr from h.rows]; exact hi1
  have hj' : j < m'.nc := by rw [← e4']; exact hj
  rw [e5' i j hi' hj', hf]
  by_cases hj1 : j < m.nc
  · rw [e5 i j hi1 hj1]
  · rw [r.val.get_col_oob i (by show r.nc ≤ j; rw [e4]; omega), h0 i j (m.val.get_col_oob i (not_lt.1 hj1))]

/-- **C170** Columns of zeros do not matter to the weightings and normalisations: the result of the padded space is the padded
result. -/
theorem C170_weighting (env env' : Env) (s s' t t' : Space κ) (st : ScalingT) (hr : 0 < s.mat.nr) (hc : 0 < s.mat.nc)
    (hp : Padded s.mat.val s'.mat.val) (h : s.apply env (.scaling st) = .ok t) (h' : s'.apply env' (.scaling st) = .ok t') :
    Padded t.mat.val t'.mat.val := by
  have hr' : 0 < s'.mat.nr := by rw [show s'.mat.nr = s.mat.nr from hp.rows]; exact hr
  have hc' : 0 < s'.mat.nc := lt_of_lt_of_le hc hp.cols
  obtain ⟨_, _, _, _, q⟩ := C05_scaling_keeps_columns env s t st hr h
  obtain ⟨_, _, _, _, q'⟩ := C05_scaling_keeps_columns env' s' t' st hr' h'
  have neg : ∀ {m r : TMat ℝ} {st : ScalingT}, (st = .epmi ∨ st = .ppmi ∨ st = .plmi) → st.apply m none = .ok r →
      NonNegative m.val := by
    intro m r st hst hm
    by_contra hn
    obtain ⟨n1, n2, n3⟩ := C16_negative_rejected m none hn
    rcases hst with rfl | rfl | rfl
    · exact absurd (n1.symm.trans hm) (by simp)
    · exact absurd (n2.symm.trans hm) (by simp)
    · exact absurd (n3.symm.trans hm) (by simp)
  cases st with
  | epmi =>
    exact hp.yields q q' (C16_epmi _ hr hc (neg (by simp) q)) (C16_epmi _ hr' hc' (neg (by simp) q')) hp.epmi
      fun i j h0 => (epmiSpec_zero h0).1
  | ppmi =>
    exact hp.yields q q' (C16_ppmi _ hr hc (neg (by simp) q)) (C16_ppmi _ hr' hc' (neg (by simp) q')) hp.ppmi
      fun i j h0 => (epmiSpec_zero h0).2
  | plmi =>
    exact hp.yields q q' (C16_plmi _ hr hc (neg (by simp) q)) (C16_plmi _ hr' hc' (neg (by simp) q'))
      (fun i j => by simp only [hp.get, hp.ppmi]) fun i j h0 => by simp only [h0, zero_mul]
  | plog =>
    exact hp.yields q q' (C17_plog _ hr hc) (C17_plog _ hr' hc') (fun i j => by simp only [hp.get])
      fun i j h0 => by simp [h0]
  | rowNorm c =>
    obtain ⟨r, e1, _, e3, e4, e5, e6⟩ := C18_row_normalization c s.mat hr hc
    obtain ⟨r', e1', _, e3', e4', e5', e6'⟩ := C18_row_normalization c s'.mat hr' hc'
    have hrt : t.mat = r := ok_inj (q.symm.trans e1)
    have hrt' : t'.mat = r' := ok_inj (q'.symm.trans e1')
    rw [hrt, hrt']
    refine Padded.of_get (by show r'.nr = r.nr; rw [e3, e3']; exact hp.rows)
      (by show r.nc ≤ r'.nc; rw [e4, e4']; exact hp.cols) fun i j hi _ => ?_
    have hi1 : i < s.mat.nr := by rw [← e3]; exact hi
    have hi' : i < s'.mat.nr := by rw [show s'.mat.nr = s.mat.nr from hp.rows]; exact hi1
    have hq := hp.rowQuantity c i
    by_cases h0 : rowQuantity c s.mat.val i = 0
    · rw [e6 i hi1 h0, e6' i hi' (by rw [hq, h0])]
    · rw [(e5 i hi1 h0).2, (e5' i hi' (by rw [hq]; exact h0)).2, hq, hp.get]
  | norm c =>
    obtain ⟨r, e1, _, e3, e4, e5, e6⟩ := C19_normalization c s.mat hr hc
    obtain ⟨r', e1', _, e3', e4', e5', e6'⟩ := C19_normalization c s'.mat hr' hc'
    have hrt : t.mat = r := ok_inj (q.symm.trans e1)
    have hrt' : t'.mat = r' := ok_inj (q'.symm.trans e1')
    rw [hrt, hrt']
    have hq := hp.matQuantity c
    by_cases h0 : matQuantity c s.mat.val = 0
    · rw [e6 h0, e6' (by rw [hq, h0])]
      exact hp
    · refine Padded.of_get (by show r'.nr = r.nr; rw [e3, e3']; exact hp.rows)
        (by show r.nc ≤ r'.nc; rw [e4, e4']; exact hp.cols) fun i j _ _ => ?_
      rw [(e5 h0).2, (e5' (by rw [hq]; exact h0)).2, hq, hp.get]

/-- **C170** nor to any sequence of them. -/
theorem C170_weightings (env env' : Env) (sts : List ScalingT) : ∀ (s s' t t' : Space κ), 0 < s.mat.nr → 0 < s.mat.nc →
    Padded s.mat.val s'.mat.val → s.applyAll env (sts.map .scaling) = .ok t → s'.applyAll env' (sts.map .scaling) = .ok t' →
    Padded t.mat.val t'.mat.val := by
  induction sts with
  | nil =>
    intro s s' t t' _ _ hp h h'
    obtain rfl := ok_inj h
    obtain rfl := ok_inj h'
    exact hp
  | cons st sts ih =>
    intro s s' t t' hr hc hp h h'
    simp only [List.map_cons, Space.applyAll, bind_eq_ok] at h h'
    obtain ⟨s1, h1, h2⟩ := h
    obtain ⟨s1', h1', h2'⟩ := h'
    obtain ⟨_, _, n1, n2, _⟩ := C05_scaling_keeps_columns env s s1 st hr h1
    exact ih s1 s1' t t' (by rw [n1]; exact hr) (by rw [n2]; exact hc)
      (C170_weighting env env' s s' s1 s1' st hr hc hp h1 h1') h2 h2'

/-- **C170** Features that no word has change no similarity and no neighbour list, by any of the four measures. -/
theorem C170_similarities (s s' : Space κ) (hwf : s.WF) (hwf' : s'.WF) (hc : 0 < s.mat.nc) (hw : s'.id2row = s.id2row)
    (hp : Padded s.mat.val s'.mat.val) (sim : Sim) :
    (∀ w1 w2, s'.getSim w1 w2 sim none = s.getSim w1 w2 sim none) ∧
    ∀ w n, s'.getNeighbours w n sim none = s.getNeighbours w n sim none := by
  have hc' : 0 < s'.mat.nc := lt_of_lt_of_le hc hp.cols
  have key : ∀ w1 w2, s'.getSim w1 w2 sim none = s.getSim w1 w2 sim none := by
    intro w1 w2
    by_cases hm : w1 ∈ s.id2row ∧ w2 ∈ s.id2row
    · obtain ⟨i, hi⟩ := Space.hasWord_of_mem hm.1
      obtain ⟨j, hj⟩ := Space.hasWord_of_mem hm.2
      rw [Space.getSim_words hwf hc hi hj,
        Space.getSim_words hwf' hc' (by unfold Space.HasWord; rw [hw]; exact hi)
          (by unfold Space.HasWord; rw [hw]; exact hj)]
      exact congrArg _ (hp.simVal i j sim)
    · have hm1 : w1 ∉ s.id2row ∨ w2 ∉ s.id2row := by tauto
      rw [C08_missing s s none sim w1 w2 rfl hwf hwf hc hm1,
        C08_missing s' s' none sim w1 w2 rfl hwf' hwf' hc' (by rw [hw]; exact hm1)]
  refine ⟨key, fun w n => ?_⟩
  by_cases hm : w ∈ s.id2row
  · have hlen : 0 < s.id2row.length := List.length_pos_of_mem hm
    obtain ⟨r1, sc1, e1, e2, e3⟩ := C09_top_n s s none sim w n rfl hwf hwf hc rfl hm hlen
    obtain ⟨r2, sc2, f1, f2, f3⟩ := C09_top_n s' s' none sim w n rfl hwf' hwf' hc' rfl (by rw [hw]; exact hm)
      (by rw [hw]; exact hlen)
    rw [hw] at f2 f3
    rw [e1, f1, e3.unique (fun x hx => ?_) f3]
    have := key w x
    rw [e2 x hx, f2 x hx] at this
    exact (ok_inj this).symm
  · rw [C09_unknown_word s none sim w n hwf hm, C09_unknown_word s' none sim w n hwf' (by rw [hw]; exact hm)]

end
end Dissect
