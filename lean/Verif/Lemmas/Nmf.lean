import Verif.Lemmas.MatOps
import Verif.Lemmas.Py
import Verif.Model.Operation
import Mathlib.Tactic.Linarith
import Mathlib.Tactic.NormNum

/-! # The projected gradient step of NMF never increases the squared error -/

namespace Dissect
open Finset

/-- Squared reconstruction error `‖V − W H‖²`. -/
noncomputable def sqErr (V W H : Mat ℝ) : ℝ :=
  ∑ i ∈ range V.nr, ∑ j ∈ range V.nc, (V.get i j - ∑ k ∈ range W.nc, W.get i k * H.get k j) ^ 2

theorem frob_adjoint (n k c : ℕ) (W R D : ℕ → ℕ → ℝ) :
    ∑ i ∈ range n, ∑ j ∈ range c, R i j * ∑ l ∈ range k, W i l * D l j =
      ∑ l ∈ range k, ∑ j ∈ range c, (∑ i ∈ range n, W i l * R i j) * D l j := by
  have h1 : ∀ i ∈ range n, ∑ j ∈ range c, R i j * ∑ l ∈ range k, W i l * D l j =
      ∑ l ∈ range k, ∑ j ∈ range c, W i l * R i j * D l j := by
    intro i _
    rw [Finset.sum_comm]
    refine Finset.sum_congr rfl (fun j _ => ?_)
    rw [Finset.mul_sum]
    exact Finset.sum_congr rfl (fun l _ => by ring)
  rw [Finset.sum_congr rfl h1, Finset.sum_comm]
  refine Finset.sum_congr rfl (fun l _ => ?_)
  rw [Finset.sum_comm]
  refine Finset.sum_congr rfl (fun j _ => ?_)
  rw [Finset.sum_mul]

/-- Expansion of the squared error around `H`, with the gradient and the quadratic form computed by the code. -/
theorem sqErr_expand (n k c : ℕ) (V W H D : ℕ → ℕ → ℝ) :
    ∑ i ∈ range n, ∑ j ∈ range c, (V i j - ∑ l ∈ range k, W i l * (H l j + D l j)) ^ 2 =
    ∑ i ∈ range n, ∑ j ∈ range c, (V i j - ∑ l ∈ range k, W i l * H l j) ^ 2 +
    2 * (∑ l ∈ range k, ∑ j ∈ range c,
      ((∑ m ∈ range k, (∑ i ∈ range n, W i l * W i m) * H m j) - ∑ i ∈ range n, W i l * V i j) * D l j) +
    ∑ l ∈ range k, ∑ j ∈ range c, (∑ m ∈ range k, (∑ i ∈ range n, W i l * W i m) * D m j) * D l j := by
  have hmove : ∀ (X : ℕ → ℕ → ℝ) l j, ∑ m ∈ range k, (∑ i ∈ range n, W i l * W i m) * X m j =
      ∑ i ∈ range n, W i l * ∑ m ∈ range k, W i m * X m j := by
    intro X l j
    simp only [Finset.sum_mul, Finset.mul_sum]
    rw [Finset.sum_comm]
    exact Finset.sum_congr rfl (fun i _ => Finset.sum_congr rfl (fun m _ => by ring))
  have hg : ∀ l j, (∑ m ∈ range k, (∑ i ∈ range n, W i l * W i m) * H m j) - ∑ i ∈ range n, W i l * V i j =
      ∑ i ∈ range n, W i l * ((∑ m ∈ range k, W i m * H m j) - V i j) := by
    intro l j
    rw [hmove H l j, ← Finset.sum_sub_distrib]
    exact Finset.sum_congr rfl (fun i _ => by ring)
  simp only [hg, hmove D]
  rw [← frob_adjoint n k c W (fun i j => (∑ m ∈ range k, W i m * H m j) - V i j) D,
    ← frob_adjoint n k c W (fun i j => ∑ m ∈ range k, W i m * D m j) D, Finset.mul_sum,
    ← Finset.sum_add_distrib, ← Finset.sum_add_distrib]
  refine Finset.sum_congr rfl (fun i _ => ?_)
  rw [Finset.mul_sum, ← Finset.sum_add_distrib, ← Finset.sum_add_distrib]
  refine Finset.sum_congr rfl (fun j _ => ?_)
  simp only [mul_add, Finset.sum_add_distrib]
  ring

/-- The quadratic form is a sum of squares. -/
theorem quad_nonneg (n k c : ℕ) (W D : ℕ → ℕ → ℝ) :
    0 ≤ ∑ l ∈ range k, ∑ j ∈ range c, (∑ m ∈ range k, (∑ i ∈ range n, W i l * W i m) * D m j) * D l j := by
  have h := sqErr_expand n k c (fun _ _ => 0) W (fun _ _ => 0) D
  simp only [mul_zero, Finset.sum_const_zero, sub_zero, zero_mul, zero_add, zero_sub, neg_zero, ne_eq, OfNat.ofNat_ne_zero,
    not_false_eq_true, zero_pow] at h
  rw [← h]
  exact Finset.sum_nonneg (fun i _ => Finset.sum_nonneg (fun j _ => sq_nonneg _))

/-- A factor of the right class and shape with non-negative entries. -/
structure Factor (ty : MTy) (nr nc : ℕ) (t : TMat ℝ) : Prop where
  ty_eq : t.ty = ty
  nr_eq : t.nr = nr
  nc_eq : t.nc = nc
  nonneg : ∀ i j, i < nr → j < nc → 0 ≤ t.val.get i j

theorem allNonneg_pos (x : ℝ) : 0 ≤ (if 0 < x then x else 0) := by
  split
  · rename_i h; exact h.le
  · exact le_rfl

section Search
variable {ty : MTy} {n k c : ℕ} {v w wt wtv wtw grad h : TMat ℝ}

/-- The matrices of one subproblem. -/
structure Subproblem (ty : MTy) (n k c : ℕ) (v w wtv wtw : TMat ℝ) : Prop where
  n_pos : 0 < n
  k_pos : 0 < k
  c_pos : 0 < c
  v_ty : v.ty = ty
  v_nr : v.nr = n
  v_nc : v.nc = c
  w_ty : w.ty = ty
  w_nr : w.nr = n
  w_nc : w.nc = k
  wtv_eq : wtv = ⟨ty, w.val.transpose.mul v.val⟩
  wtw_eq : wtw = ⟨ty, w.val.transpose.mul w.val⟩

/-- What is known about every candidate: a non-negative factor not worse than `h`. -/
def Cand (ty : MTy) (k c : ℕ) (v w h x : TMat ℝ) : Prop :=
  Factor ty k c x ∧ sqErr v.val w.val x.val ≤ sqErr v.val w.val h.val

theorem searchStep_spec (hs : Subproblem ty n k c v w wtv wtw) (hh : Factor ty k c h)
    (hg : grad = ⟨ty, (wtw.val.mul h.val).sub wtv.val⟩) (first : Bool) (st : SearchState)
    (hhp : Cand ty k c v w h st.hp) :
    ∃ out, searchStep wtw h grad first st = .ok out ∧
      (∀ r, out = .inl r → Cand ty k c v w h r.1) ∧ (∀ st', out = .inr st' → Cand ty k c v w h st'.hp) := by
  have hcnd : Cand ty k c v w h h := ⟨hh, le_rfl⟩
  have hgr : grad.nr = k := by rw [hg, hs.wtw_eq]; exact hs.w_nc
  have hgc : grad.nc = c := by rw [hg]; exact hh.nc_eq
  have hgt : grad.ty = ty := by rw [hg]
  have e1 := TMat.mulScalar_ok (s := grad) st.alpha (by rw [hgr]; exact hs.k_pos) (by rw [hgc]; exact hs.c_pos)
  have e2 := TMat.sub_ok (s := h) (t := ⟨grad.ty, grad.val.smul st.alpha⟩) (by rw [hh.ty_eq, hgt])
    (by rw [hh.nr_eq]; exact hgr.symm) (by rw [hh.nc_eq]; exact hgc.symm) (by rw [hh.nr_eq]; exact hs.k_pos)
    (by rw [hh.nc_eq]; exact hs.c_pos)
  set hn0 : TMat ℝ := ⟨h.ty, h.val.sub (grad.val.smul st.alpha)⟩ with hhn0
  have e3 := TMat.getNonNegative_ok (s := hn0) (by show 0 < h.nr; rw [hh.nr_eq]; exact hs.k_pos)
    (by show 0 < h.nc; rw [hh.nc_eq]; exact hs.c_pos)
  set hn : TMat ℝ := ⟨hn0.ty, hn0.val.map (fun x => if 0 < x then x else 0)⟩ with hhn
  have hnty : hn.ty = ty := hh.ty_eq
  have hnnr : hn.nr = k := hh.nr_eq
  have hnnc : hn.nc = c := hh.nc_eq
  have hnF : Factor ty k c hn := ⟨hnty, hnnr, hnnc, by
    intro i j hi hj
    rw [hhn]
    simp only
    rw [Mat.map_get_lt _ _ (by show i < h.nr; rw [hh.nr_eq]; exact hi) (by show j < h.nc; rw [hh.nc_eq]; exact hj)]
    exact allNonneg_pos _⟩
  have e4 := TMat.sub_ok (s := hn) (t := h) (hnty.trans hh.ty_eq.symm) (hnnr.trans hh.nr_eq.symm) (hnnc.trans hh.nc_eq.symm)
    (by rw [hnnr]; exact hs.k_pos) (by rw [hnnc]; exact hs.c_pos)
  set d : TMat ℝ := ⟨hn.ty, hn.val.sub h.val⟩ with hd
  have hdty : d.ty = ty := hnty
  have hdnr : d.nr = k := hnnr
  have hdnc : d.nc = c := hnnc
  have e5 := TMat.multiply_ok (s := grad) (t := d) (by rw [hgt, hdty]) (by rw [hgr, hdnr]) (by rw [hgc, hdnc])
    (by rw [hgr]; exact hs.k_pos) (by rw [hgc]; exact hs.c_pos)
  have hwr : wtw.nr = k := by rw [hs.wtw_eq]; exact hs.w_nc
  have hwc : wtw.nc = k := by rw [hs.wtw_eq]; exact hs.w_nc
  have hwt : wtw.ty = ty := by rw [hs.wtw_eq]
  have e6 := TMat.mul_ok (s := wtw) (t := d) (by rw [hwt, hdty]) (by rw [hwc, hdnr]) (by rw [hwr]; exact hs.k_pos)
    (by rw [hdnc]; exact hs.c_pos)
  have e7 := TMat.multiply_ok (s := ⟨wtw.ty, wtw.val.mul d.val⟩) (t := d) (by rw [hdty]; exact hwt)
    (by rw [hdnr]; exact hwr) rfl (by show 0 < wtw.nr; rw [hwr]; exact hs.k_pos)
    (by show 0 < d.nc; rw [hdnc]; exact hs.c_pos)
  -- the test implies a decrease
  have hdec : 99 / 100 * (⟨grad.ty, grad.val.had d.val⟩ : TMat ℝ).sumAll +
      1 / 2 * (⟨wtw.ty, (wtw.val.mul d.val).had d.val⟩ : TMat ℝ).sumAll < 0 →
      sqErr v.val w.val hn.val ≤ sqErr v.val w.val h.val := by
    have hdget : ∀ l j, d.val.get l j = hn.val.get l j - h.val.get l j := by
      intro l j
      rw [hd]
      exact Mat.sub_get (by show hn.nr = h.nr; rw [hnnr, hh.nr_eq]) (by show hn.nc = h.nc; rw [hnnc, hh.nc_eq]) l j
    have hW : w.val.nr = n := hs.w_nr
    have hWc : w.val.nc = k := hs.w_nc
    have hvn : v.val.nr = n := hs.v_nr
    have hvc : v.val.nc = c := hs.v_nc
    have hexp := sqErr_expand n k c v.val.get w.val.get h.val.get d.val.get
    have hq := quad_nonneg n k c w.val.get d.val.get
    have hA : sqErr v.val w.val hn.val = ∑ i ∈ range n, ∑ j ∈ range c,
        (v.val.get i j - ∑ l ∈ range k, w.val.get i l * (h.val.get l j + d.val.get l j)) ^ 2 := by
      unfold sqErr
      rw [hvn, hvc, hWc]
      refine Finset.sum_congr rfl (fun i _ => Finset.sum_congr rfl (fun j _ => ?_))
      congr 2
      exact Finset.sum_congr rfl (fun l _ => by rw [hdget]; ring)
    have hB : sqErr v.val w.val h.val = ∑ i ∈ range n, ∑ j ∈ range c,
        (v.val.get i j - ∑ l ∈ range k, w.val.get i l * h.val.get l j) ^ 2 := by
      unfold sqErr
      rw [hvn, hvc, hWc]
    have hgget : ∀ l j, grad.val.get l j = (∑ m ∈ range k, (∑ i ∈ range n, w.val.get i l * w.val.get i m) *
        h.val.get m j) - ∑ i ∈ range n, w.val.get i l * v.val.get i j := by
      intro l j
      rw [hg]
      simp only
      rw [Mat.sub_get (by rw [hs.wtw_eq, hs.wtv_eq]; rfl) (by
        rw [hs.wtv_eq]
        show h.nc = v.nc
        rw [hh.nc_eq, hs.v_nc])]
      rw [hs.wtw_eq, hs.wtv_eq]
      simp only [Mat.mul_get, Mat.mul_nc, Mat.transpose_nc, Mat.transpose_get, hW, hWc]
    have hG : (⟨grad.ty, grad.val.had d.val⟩ : TMat ℝ).sumAll = ∑ l ∈ range k, ∑ j ∈ range c,
        ((∑ m ∈ range k, (∑ i ∈ range n, w.val.get i l * w.val.get i m) * h.val.get m j) -
          ∑ i ∈ range n, w.val.get i l * v.val.get i j) * d.val.get l j := by
      unfold TMat.sumAll Mat.total
      simp only [Mat.had_nr, Mat.had_nc, Mat.had_get, hgget]
      have a1 : grad.val.nr = k := hgr
      have a2 : grad.val.nc = c := hgc
      rw [a1, a2]
    have hQ : (⟨wtw.ty, (wtw.val.mul d.val).had d.val⟩ : TMat ℝ).sumAll = ∑ l ∈ range k, ∑ j ∈ range c,
        (∑ m ∈ range k, (∑ i ∈ range n, w.val.get i l * w.val.get i m) * d.val.get m j) * d.val.get l j := by
      unfold TMat.sumAll Mat.total
      have a1 : wtw.val.nr = k := hwr
      have a2 : wtw.val.nc = k := hwc
      have a3 : d.val.nc = c := hdnc
      simp only [Mat.had_nr, Mat.had_nc, Mat.had_get, Mat.mul_nr, Mat.mul_nc, Mat.mul_get, a1, a2, a3]
      rw [hs.wtw_eq]
      simp only [Mat.mul_get, Mat.transpose_get, Mat.transpose_nc, hW]
    rw [hG, hQ, hA, hB, hexp]
    intro hlt
    nlinarith [hq, hlt]
  simp only [searchStep, e1, e2, e3, e4, e5, e6, e7, ok_bind, pure_eq_ok]
  generalize hsd : decide (99 / 100 * (⟨grad.ty, grad.val.had d.val⟩ : TMat ℝ).sumAll +
      1 / 2 * (⟨wtw.ty, (wtw.val.mul d.val).had d.val⟩ : TMat ℝ).sumAll < 0) = sd
  have hcn : sd = true → Cand ty k c v w h hn := by
    intro hsdt
    refine ⟨hnF, hdec ?_⟩
    rw [← hsd] at hsdt
    exact of_decide_eq_true hsdt
  generalize hda : (if first = true then !sd else st.decrAlpha) = da
  have hhp' : Cand ty k c v w h (if first = true then h else st.hp) := by
    split
    · exact hcnd
    · exact hhp
  generalize (if first = true then h else st.hp) = hp at hhp' ⊢
  cases da with
  | true =>
    simp only [if_true]
    cases hsd' : sd with
    | true =>
      exact ⟨_, rfl, by rintro r ⟨⟩; exact hcn hsd', by rintro st' ⟨⟩⟩
    | false =>
      refine ⟨_, rfl, by rintro r ⟨⟩, ?_⟩
      rintro st' ⟨⟩
      exact hhp'
  | false =>
    simp only [Bool.false_eq_true, if_false]
    cases hsd' : sd with
    | false =>
      simp only [Bool.not_false, Bool.true_or, if_true]
      exact ⟨_, rfl, by rintro r ⟨⟩; exact hhp', by rintro st' ⟨⟩⟩
    | true =>
      simp only [Bool.not_true, Bool.false_or]
      split
      · refine ⟨.inl _, rfl, ?_, ?_⟩
        · intro r hr; injection hr with hr; rw [← hr]; exact hhp'
        · intro r hr; cases hr
      · refine ⟨.inr _, rfl, ?_, ?_⟩
        · intro r hr; cases hr
        · intro r hr; injection hr with hr; rw [← hr]; exact hcn hsd'

theorem searchLoop_spec (hs : Subproblem ty n k c v w wtv wtw) (hh : Factor ty k c h)
    (hg : grad = ⟨ty, (wtw.val.mul h.val).sub wtv.val⟩) (p : ℕ) : ∀ (first : Bool) (st : SearchState),
    Cand ty k c v w h st.hp → ∃ r, searchLoop wtw h grad p first st = .ok r ∧ Cand ty k c v w h r.1 := by
  induction p with
  | zero => intro first st _; exact ⟨_, rfl, hh, le_rfl⟩
  | succ p ih =>
    intro first st hst
    obtain ⟨out, ho, h1, h2⟩ := searchStep_spec hs hh hg first st hst
    simp only [searchLoop, ho, ok_bind]
    cases out with
    | inl r => exact ⟨r, rfl, h1 r rfl⟩
    | inr st' => exact ih false st' (h2 st' rfl)

theorem nlsLoop_spec (hs : Subproblem ty n k c v w wtv wtw) (p : ℕ) : ∀ (alpha : ℝ) (h : TMat ℝ), Factor ty k c h →
    ∃ h', nlsLoop wtv wtw p alpha h = .ok h' ∧ Cand ty k c v w h h' := by
  induction p with
  | zero => intro alpha h hh; exact ⟨h, rfl, hh, le_rfl⟩
  | succ p ih =>
    intro alpha h hh
    have hwr : wtw.nr = k := by rw [hs.wtw_eq]; exact hs.w_nc
    have hwc : wtw.nc = k := by rw [hs.wtw_eq]; exact hs.w_nc
    have hwt : wtw.ty = ty := by rw [hs.wtw_eq]
    have e1 := TMat.mul_ok (s := wtw) (t := h) (by rw [hwt, hh.ty_eq]) (by rw [hwc, hh.nr_eq])
      (by rw [hwr]; exact hs.k_pos) (by rw [hh.nc_eq]; exact hs.c_pos)
    have e2 := TMat.sub_ok (s := ⟨wtw.ty, wtw.val.mul h.val⟩) (t := wtv) (by rw [hs.wtv_eq]; exact hwt)
      (by rw [hs.wtv_eq]; show wtw.nr = w.nc; rw [hwr, hs.w_nc])
      (by rw [hs.wtv_eq]; show h.nc = v.nc; rw [hh.nc_eq, hs.v_nc])
      (by show 0 < wtw.nr; rw [hwr]; exact hs.k_pos) (by show 0 < h.nc; rw [hh.nc_eq]; exact hs.c_pos)
    obtain ⟨⟨h1, a1⟩, hl, hc1⟩ := searchLoop_spec hs hh
      (grad := ⟨ty, (wtw.val.mul h.val).sub wtv.val⟩) rfl 19 true ⟨alpha, false, h⟩ ⟨hh, le_rfl⟩
    obtain ⟨h', hn, hc2⟩ := ih a1 h1 hc1.1
    refine ⟨h', ?_, hc2.1, hc2.2.trans hc1.2⟩
    simp only [nlsLoop, e1, e2, ok_bind]
    rw [hwt, hl]
    exact hn

end Search

/-- One half-iteration: `_nmf_nlssubprob`. -/
theorem nlsSubprob_spec {ty : MTy} {n k c : ℕ} (v w wt h : TMat ℝ) (hn : 0 < n) (hk : 0 < k) (hc : 0 < c)
    (hvt : v.ty = ty) (hvr : v.nr = n) (hvc : v.nc = c) (hwt : w.ty = ty) (hwr : w.nr = n) (hwc : w.nc = k)
    (hw : wt = ⟨ty, w.val.transpose⟩) (hh : Factor ty k c h) :
    ∃ h', nlsSubprob v w wt h = .ok h' ∧ Cand ty k c v w h h' := by
  have e1 := TMat.mul_ok (s := wt) (t := v) (by rw [hw, hvt]) (by rw [hw]; show w.nr = v.nr; rw [hwr, hvr])
    (by rw [hw]; show 0 < w.nc; rw [hwc]; exact hk) (by rw [hvc]; exact hc)
  have e2 := TMat.mul_ok (s := wt) (t := w) (by rw [hw, hwt]) (by rw [hw]; rfl)
    (by rw [hw]; show 0 < w.nc; rw [hwc]; exact hk) (by rw [hwc]; exact hk)
  have hs : Subproblem ty n k c v w ⟨wt.ty, wt.val.mul v.val⟩ ⟨wt.ty, wt.val.mul w.val⟩ :=
    ⟨hn, hk, hc, hvt, hvr, hvc, hwt, hwr, hwc, by rw [hw], by rw [hw]⟩
  obtain ⟨h', h1, h2⟩ := nlsLoop_spec hs 14 1 h hh
  exact ⟨h', by simp only [nlsSubprob, e1, e2, ok_bind]; exact h1, h2⟩

theorem sqErr_transpose (V W H : Mat ℝ) (hk : W.nc = H.nr) :
    sqErr V.transpose H.transpose W.transpose = sqErr V W H := by
  unfold sqErr
  rw [Finset.sum_comm]
  simp only [Mat.transpose_nr, Mat.transpose_nc, Mat.transpose_get, hk]
  refine Finset.sum_congr rfl (fun i _ => Finset.sum_congr rfl (fun j _ => ?_))
  congr 2
  exact Finset.sum_congr rfl (fun l _ => mul_comm _ _)

theorem Factor.transpose {ty : MTy} {a b : ℕ} {t : TMat ℝ} (h : Factor ty a b t) :
    Factor ty b a ⟨ty, t.val.transpose⟩ :=
  ⟨rfl, h.nc_eq, h.nr_eq, fun i j hi hj => h.nonneg j i hj hi⟩

theorem nmfLoop_spec {ty : MTy} {n k c : ℕ} (v vt : TMat ℝ) (timeout : ℕ → Bool) (hn : 0 < n) (hk : 0 < k) (hc : 0 < c)
    (hvt : v.ty = ty) (hvr : v.nr = n) (hvc : v.nc = c) (hv : vt = ⟨ty, v.val.transpose⟩) (p : ℕ) :
    ∀ (w h : TMat ℝ), Factor ty n k w → Factor ty k c h →
    ∃ w' h', nmfLoop v vt timeout p w h = .ok (w', h') ∧ Factor ty n k w' ∧ Factor ty k c h' ∧
      sqErr v.val w'.val h'.val ≤ sqErr v.val w.val h.val := by
  induction p with
  | zero => intro w h hw hh; exact ⟨w, h, rfl, hw, hh, le_rfl⟩
  | succ p ih =>
    intro w h hw hh
    simp only [nmfLoop]
    split
    · exact ⟨w, h, rfl, hw, hh, le_rfl⟩
    · have e1 := TMat.transpose_ok (s := h) (by rw [hh.nr_eq]; exact hk) (by rw [hh.nc_eq]; exact hc)
      have e2 := TMat.transpose_ok (s := w) (by rw [hw.nr_eq]; exact hn) (by rw [hw.nc_eq]; exact hk)
      rw [hh.ty_eq] at e1
      rw [hw.ty_eq] at e2
      obtain ⟨ow, h1, hc1⟩ := nlsSubprob_spec (ty := ty) (n := c) (k := k) (c := n) vt ⟨ty, h.val.transpose⟩ h
        ⟨ty, w.val.transpose⟩ hc hk hn (by rw [hv]) (by rw [hv]; exact hvc) (by rw [hv]; exact hvr) rfl hh.nc_eq hh.nr_eq
        (by
          have := hh.ty_eq
          cases h
          simp only [Mat.transpose_transpose] at this ⊢
          rw [this]) hw.transpose
      have e3 := TMat.transpose_ok (s := ow) (by rw [hc1.1.nr_eq]; exact hk) (by rw [hc1.1.nc_eq]; exact hn)
      rw [hc1.1.ty_eq] at e3
      obtain ⟨h', h2, hc2⟩ := nlsSubprob_spec (ty := ty) v ⟨ty, ow.val.transpose⟩ ow h hn hk hc hvt hvr hvc rfl
        hc1.1.nc_eq hc1.1.nr_eq (by
          have := hc1.1.ty_eq
          cases ow
          simp only [Mat.transpose_transpose] at this ⊢
          rw [this]) hh
      obtain ⟨w'', h'', h3, hw3, hh3, he3⟩ := ih ⟨ty, ow.val.transpose⟩ h' hc1.1.transpose hc2.1
      refine ⟨w'', h'', ?_, hw3, hh3, ?_⟩
      · simp only [e1, e2, h1, e3, h2, ok_bind]
        exact h3
      · refine he3.trans (hc2.2.trans ?_)
        have := hc1.2
        rw [hv] at this
        simp only at this
        have a : sqErr v.val.transpose h.val.transpose ow.val = sqErr v.val ow.val.transpose h.val := by
          have := sqErr_transpose v.val ow.val.transpose h.val (by
            show ow.nr = h.nr; rw [hc1.1.nr_eq, hh.nr_eq])
          rwa [Mat.transpose_transpose] at this
        rw [a, sqErr_transpose v.val w.val h.val (by show w.nc = h.nr; rw [hw.nc_eq, hh.nr_eq])] at this
        exact this

theorem nmf_spec {ty : MTy} {n k c : ℕ} (v w h : TMat ℝ) (timeout : ℕ → Bool) (hn : 0 < n) (hk : 0 < k) (hc : 0 < c)
    (hvt : v.ty = ty) (hvr : v.nr = n) (hvc : v.nc = c) (hw : Factor ty n k w) (hh : Factor ty k c h) :
    ∃ w' h', nmf v w h timeout = .ok (w', h') ∧ Factor ty n k w' ∧ Factor ty k c h' ∧
      sqErr v.val w'.val h'.val ≤ sqErr v.val w.val h.val := by
  have pw : 0 < w.nr ∧ 0 < w.nc := ⟨by rw [hw.nr_eq]; exact hn, by rw [hw.nc_eq]; exact hk⟩
  have ph : 0 < h.nr ∧ 0 < h.nc := ⟨by rw [hh.nr_eq]; exact hk, by rw [hh.nc_eq]; exact hc⟩
  have pv : 0 < v.nr ∧ 0 < v.nc := ⟨by rw [hvr]; exact hn, by rw [hvc]; exact hc⟩
  have e1 := TMat.transpose_ok (s := w) pw.1 pw.2
  have e2 := TMat.transpose_ok (s := h) ph.1 ph.2
  have e3 := TMat.transpose_ok (s := v) pv.1 pv.2
  rw [hw.ty_eq] at e1
  rw [hh.ty_eq] at e2
  rw [hvt] at e3
  have e4 := TMat.mul_ok (s := h) (t := ⟨ty, h.val.transpose⟩) hh.ty_eq rfl ph.1 ph.1
  have e5 := TMat.mul_ok (s := w) (t := ⟨h.ty, h.val.mul h.val.transpose⟩) (by rw [hw.ty_eq, hh.ty_eq])
    (by rw [hw.nc_eq]; exact hh.nr_eq.symm) pw.1 ph.1
  have e6 := TMat.mul_ok (s := v) (t := ⟨ty, h.val.transpose⟩) hvt (by rw [hvc]; exact hh.nc_eq.symm) pv.1 ph.1
  have e7 := TMat.sub_ok (s := ⟨w.ty, w.val.mul (h.val.mul h.val.transpose)⟩) (t := ⟨v.ty, v.val.mul h.val.transpose⟩)
    (by rw [hvt]; exact hw.ty_eq) (by show w.nr = v.nr; rw [hw.nr_eq, hvr]) rfl pw.1 ph.1
  have e8 := TMat.mul_ok (s := ⟨ty, w.val.transpose⟩) (t := w) hw.ty_eq.symm rfl pw.2 pw.2
  have e9 := TMat.mul_ok (s := ⟨ty, w.val.transpose.mul w.val⟩) (t := h) hh.ty_eq.symm
    (by show w.nc = h.nr; rw [hw.nc_eq, hh.nr_eq]) pw.2 ph.2
  have e10 := TMat.mul_ok (s := ⟨ty, w.val.transpose⟩) (t := v) hvt.symm (by show w.nr = v.nr; rw [hw.nr_eq, hvr])
    pw.2 pv.2
  have e11 := TMat.sub_ok (s := ⟨ty, (w.val.transpose.mul w.val).mul h.val⟩) (t := ⟨ty, w.val.transpose.mul v.val⟩)
    rfl rfl (by show h.nc = v.nc; rw [hh.nc_eq, hvc]) pw.2 ph.2
  obtain ⟨w', h', hl, r⟩ := nmfLoop_spec v ⟨ty, v.val.transpose⟩ timeout hn hk hc hvt hvr hvc rfl 19 w h hw hh
  refine ⟨w', h', ?_, r⟩
  simp only [nmf, e1, e2, e3, e4, e5, e6, e7, e8, e9, e10, e11, ok_bind]
  exact hl

end Dissect
