import Verif.Props.NmfInit
import Verif.Props.SvdBest
import Verif.Props.PeriphScript
import Verif.Props.CoreSpace
import Verif.Spec.Backend

/-! # C134: with a numerical library that does what it promises, every documented core space can be built -/

namespace Dissect
open Finset
noncomputable section

/-! ### When the singular value decomposition succeeds -/

theorem IsSvd.bessel {A u : Mat ℝ} {s : List ℝ} {vt : Mat ℝ} (h : IsSvd A u s vt) (x : ℕ → ℝ) :
    ∑ l ∈ range s.length, (∑ j ∈ range A.nc, vt.get l j * x j) ^ 2 ≤ ∑ j ∈ range A.nc, x j ^ 2 := by
  have hv : Orthonormal ℝ (fun l : Fin s.length => evec A.nc (fun j => vt.get l j)) := by
    rw [orthonormal_iff_ite]
    intro k l
    rw [evec_inner, h.vOrth k l (by omega) (by omega)]
    simp [Fin.ext_iff]
  have := hv.sum_inner_products_le (evec A.nc x) (s := Finset.univ)
  rw [evec_norm] at this
  refine le_trans (le_of_eq ?_) this
  rw [Finset.sum_range]
  refine Finset.sum_congr rfl (fun l _ => ?_)
  rw [evec_inner, Real.norm_eq_abs, sq_abs]

/-- `‖A x‖² = Σ sₗ² ⟨vₗ, x⟩²`. -/
theorem IsSvd.image {A u : Mat ℝ} {s : List ℝ} {vt : Mat ℝ} (h : IsSvd A u s vt) (x : ℕ → ℝ) :
    ∑ i ∈ range A.nr, (∑ j ∈ range A.nc, A.get i j * x j) ^ 2 =
      ∑ l ∈ range s.length, (s.getD l 0 * ∑ j ∈ range A.nc, vt.get l j * x j) ^ 2 := by
  have e : ∀ i ∈ range A.nr, ∑ j ∈ range A.nc, A.get i j * x j =
      ∑ l ∈ range s.length, (s.getD l 0 * ∑ j ∈ range A.nc, vt.get l j * x j) * u.transpose.get l i := by
    intro i hi
    have : ∀ j ∈ range A.nc, A.get i j * x j = ∑ l ∈ range s.length, u.get i l * s.getD l 0 * vt.get l j * x j := by
      intro j hj
      rw [h.factor i j (Finset.mem_range.1 hi) (Finset.mem_range.1 hj), Finset.sum_mul]
    rw [Finset.sum_congr rfl this, Finset.sum_comm]
    refine Finset.sum_congr rfl (fun l _ => ?_)
    rw [Mat.transpose_get, Finset.mul_sum, Finset.sum_mul]
    exact Finset.sum_congr rfl (fun j _ => by ring)
  rw [Finset.sum_congr rfl (fun i hi => by rw [e i hi])]
  refine orth_combination (vt := u.transpose) (r := s.length) (fun k l hk hl => ?_) (fun l hl => Finset.mem_range.1 hl) _
  simp only [Mat.transpose_get]
  exact h.uOrth k l hk hl

/-- The largest singular value exceeds `t` iff the matrix stretches some vector of length 1 beyond `t`. -/
theorem IsSvd.stretches {A u : Mat ℝ} {s : List ℝ} {vt : Mat ℝ} (h : IsSvd A u s vt) {t : ℝ} (ht : 0 ≤ t) :
    A.Stretches t ↔ ∃ x ∈ s, t < x := by
  constructor
  · rintro ⟨x, h1, h2⟩
    by_contra hcon
    push Not at hcon
    have hb := h.bessel x
    rw [h1] at hb
    rw [h.image x] at h2
    have : ∑ l ∈ range s.length, (s.getD l 0 * ∑ j ∈ range A.nc, vt.get l j * x j) ^ 2 ≤
        t ^ 2 * ∑ l ∈ range s.length, (∑ j ∈ range A.nc, vt.get l j * x j) ^ 2 := by
      rw [Finset.mul_sum]
      refine Finset.sum_le_sum (fun l hl => ?_)
      have hl' := Finset.mem_range.1 hl
      rw [mul_pow]
      refine mul_le_mul_of_nonneg_right ?_ (sq_nonneg _)
      have hm : s.getD l 0 ∈ s := by
        rw [List.getD, List.getElem?_eq_getElem hl']
        exact List.getElem_mem _
      exact pow_le_pow_left₀ (h.nonneg _ hm) (hcon _ hm) 2
    nlinarith [sq_nonneg t]
  · rintro ⟨y, hy, hty⟩
    obtain ⟨k, hk, rfl⟩ := List.mem_iff_getElem.1 hy
    refine ⟨fun j => vt.get k j, ?_, ?_⟩
    · have := h.vOrth k k hk hk
      rw [if_pos rfl] at this
      rw [← this]
      exact Finset.sum_congr rfl (fun j _ => by ring)
    · rw [h.image]
      have e : ∀ l ∈ range s.length, (s.getD l 0 * ∑ j ∈ range A.nc, vt.get l j * vt.get k j) ^ 2 =
          if l = k then s[k] ^ 2 else 0 := by
        intro l hl
        rw [h.vOrth l k (Finset.mem_range.1 hl) hk]
        split
        · rename_i hlk
          subst hlk
          rw [List.getD, List.getElem?_eq_getElem hk]
          simp
        · simp
      rw [Finset.sum_congr rfl e, Finset.sum_ite_eq' (range s.length) k, if_pos (Finset.mem_range.2 hk)]
      exact pow_lt_pow_left₀ hty ht (by norm_num)

theorem stretches_of_entry {A : Mat ℝ} {t : ℝ} (ht : 0 ≤ t) {i j : ℕ} (hi : i < A.nr) (hj : j < A.nc) (h : t < |A.get i j|) :
    A.Stretches t := by
  refine ⟨fun l => if l = j then 1 else 0, ?_, ?_⟩
  · simp [hj]
  · have e : ∀ i ∈ range A.nr, (∑ l ∈ range A.nc, A.get i l * if l = j then (1 : ℝ) else 0) ^ 2 = A.get i j ^ 2 := by
      intro i _
      simp [hj]
    rw [Finset.sum_congr rfl e]
    have h1 : t ^ 2 < A.get i j ^ 2 := by
      rw [← sq_abs (A.get i j)]
      exact pow_lt_pow_left₀ h ht (by norm_num)
    exact lt_of_lt_of_le h1 (Finset.single_le_sum (f := fun i => A.get i j ^ 2) (fun _ _ => sq_nonneg _) (Finset.mem_range.2 hi))

/-- **C134** `Svd(k)` of a dense matrix: succeeds if the matrix stretches some unit vector beyond `10⁻¹²`, and raises
`ValueError` otherwise. -/
theorem C134_svd_dense {env : Env} (henv : env.Ideal) {m : TMat ℝ} (hty : m.ty = .dense) (hr : 0 < m.nr) (hc : 0 < m.nc)
    {k : ℕ} (hk : 0 < k) :
    (m.val.Stretches (1 / 10 ^ 12) → ∃ red V, (DimRedT.svd k).apply env m = .ok (red, V) ∧ red.nr = m.nr ∧ 0 < red.nc ∧
      red.nc ≤ k ∧ V.nr = m.nc ∧ m.mul V = .ok red) ∧
    (¬ m.val.Stretches (1 / 10 ^ 12) → (DimRedT.svd k).apply env m = .error .valueError) := by
  obtain ⟨u0, s0, vt0, he, hs⟩ := henv.svd m.val
  rw [hs.stretches (by norm_num)]
  constructor
  · intro h
    obtain ⟨red, V, h1, h2, h3, h4, h5, h6, -⟩ := C21_dense env m k _ _ _ hty hr hc hk he hs h
    exact ⟨red, V, h1, h2, h4, by rw [h3]; exact min_le_left _ _, h5, h6⟩
  · intro h
    push Not at h
    exact C21_dense_rank_zero env m k _ _ _ hty he h

/-- **C134** `Svd(k)` of a sparse matrix with a non-zero entry succeeds. -/
theorem C134_svd_sparse {env : Env} (henv : env.Ideal) {m : TMat ℝ} (hty : m.ty = .sparse) {i j : ℕ} (hi : i < m.nr)
    (hj : j < m.nc) (hne : m.val.get i j ≠ 0) {k : ℕ} (hk : 0 < k) :
    ∃ red V, (DimRedT.svd k).apply env m = .ok (red, V) ∧ red.nr = m.nr ∧ 0 < red.nc ∧ red.nc ≤ k ∧ V.nr = m.nc ∧
      m.mul V = .ok red := by
  obtain ⟨ut, s, vt, he, ht⟩ := henv.sparse m.val (k + k / 10)
  have hpos : 0 < s.length := by
    obtain ⟨_, _, _, _, U, S, VT, hsvd, hlen, _, hz⟩ := ht
    by_contra h0
    have h0' : s.length = 0 := by omega
    refine hne ?_
    rw [hsvd.factor i j hi hj]
    refine Finset.sum_eq_zero (fun l hl => ?_)
    rw [hz (by omega) l (by omega) (Finset.mem_range.1 hl)]
    simp
  obtain ⟨red, V, h1, h2, h3, h4, h5, -⟩ := C21_sparse env m k _ _ _ hty (by omega) (by omega) hk he ht.singular hpos
  exact ⟨red, V, h1, h2, by rw [h3]; exact lt_min hk hpos, by rw [h3]; exact min_le_left _ _, h4, h5⟩

/-- **C96** with an exact SVD routine, `Nmf.nndsvd_init` of a dense non-negative matrix gives a start unless the matrix is zero
up to `10⁻¹²` (it stretches no unit vector beyond that), in which case it raises `ValueError`. -/
theorem C96_nndsvd_dense_iff {env : Env} (henv : env.Ideal) {m : TMat ℝ} (hty : m.ty = .dense) (hm : NonNegative m.val)
    (hr : 0 < m.nr) (hc : 0 < m.nc) {k : ℕ} (hk : 0 < k) :
    (m.val.Stretches (1 / 10 ^ 12) → ∃ u s v w h, svd env m k = .ok (u, s, v) ∧ 0 < u.nc ∧ u.nc ≤ k ∧
      nndsvdInit env m k = .ok (w, h) ∧ NndsvdStart m u s.data v k w h) ∧
    (¬ m.val.Stretches (1 / 10 ^ 12) → nndsvdInit env m k = .error .valueError) := by
  obtain ⟨u0, s0, vt0, he, hs⟩ := henv.svd m.val
  rw [hs.stretches (by norm_num)]
  constructor
  · intro h
    obtain ⟨u, s, v, w, h', h1, h2, h3, h4⟩ := C96_nndsvd_dense env m k _ _ _ hty hm hr hc hk he hs h
    refine ⟨u, s, v, w, h', h1, ?_, by rw [h2]; exact min_le_left _ _, h3, h4⟩
    rw [h2]
    obtain ⟨x, hx, hx'⟩ := h
    exact lt_min hk (List.length_pos_of_mem (List.mem_filter.2 ⟨hx, by simpa [svdTol] using hx'⟩))
  · intro h
    push Not at h
    have e' : svd env m k = .error .valueError := by
      have h0 : (s0.filter (fun x => decide (svdTol < x))).length = 0 := by
        rw [List.length_eq_zero_iff, List.filter_eq_nil_iff]
        intro x hx
        simpa [svdTol] using h x hx
      simp only [svd, hty]
      rw [if_neg (by omega)]
      simp only [denseSvd, he, ok_bind, h0, Nat.min_zero]
      have : TMat.ofNumpy .dense (u0.takeCols 0) = .error .valueError := by
        unfold TMat.ofNumpy
        rw [if_pos (Or.inr (by simp [Mat.takeCols]))]
      rw [this, error_bind]
    unfold nndsvdInit
    rw [e', error_bind]

/-! ### Single transformations -/

/-- The matrix can be reduced by `Svd`: a dense one must not be zero up to `10⁻¹²`, a sparse one must have a non-zero entry. -/
def Reducible (m : TMat ℝ) : Prop :=
  (m.ty = .dense → m.val.Stretches (1 / 10 ^ 12)) ∧ (m.ty = .sparse → ∃ i j, i < m.nr ∧ j < m.nc ∧ m.val.get i j ≠ 0)

/-- An entry greater than `10⁻¹²` suffices. -/
theorem Reducible.of_entry {m : TMat ℝ} {i j : ℕ} (hi : i < m.nr) (hj : j < m.nc) (h : 1 / 10 ^ 12 < |m.val.get i j|) :
    Reducible m := by
  refine ⟨fun _ => stretches_of_entry (by norm_num) hi hj h, fun _ => ⟨i, j, hi, hj, fun h0 => ?_⟩⟩
  rw [h0, abs_zero] at h
  norm_num at h

/-- A consistent, non-empty space of plain vectors. -/
structure Plain (s : Space Str) : Prop where
  wf : s.WF
  rows : 0 < s.mat.nr
  cols : 0 < s.mat.nc
  flat : s.elemShape.length ≤ 1

theorem plain_scaling {env : Env} {s s' : Space Str} {st : ScalingT} (hs : Plain s) (h : s.apply env (.scaling st) = .ok s') :
    Plain s' ∧ ∃ r, st.apply s.mat none = .ok r ∧ s'.mat = r := by
  obtain ⟨op, m, hop, op', -, h2, h3, h4, h5, h6, -, -, -⟩ := apply_eq_ok h
  obtain ⟨-, hr⟩ := opApply_scaling hop
  obtain ⟨-, e2, e3⟩ := applyT_shape hs.rows hr
  exact ⟨⟨h6, by rw [h2, e2]; exact hs.rows, by rw [h2, e3]; exact hs.cols, by rw [h5]; simp⟩, m, hr, h2⟩

/-- A documented weighting of a non-negative space succeeds and gives a non-negative space. -/
theorem weighting_total (env : Env) {s : Space Str} (hs : Plain s) (hn : NonNegative s.mat.val) {t : Str} {sc : ScalingT}
    (hsc : (t, sc) ∈ weightingTable) : ∃ s', s.apply env (.scaling sc) = .ok s' ∧ Plain s' ∧ NonNegative s'.mat.val := by
  obtain ⟨s', h⟩ := (C05_apply_total env s hs.wf hs.rows hs.cols).1 sc hn
  obtain ⟨h1, r, h2, h3⟩ := plain_scaling hs h
  refine ⟨s', h, h1, ?_⟩
  have key : ∀ {f : ℕ → ℕ → ℝ}, Yields (sc.apply s.mat none) s.mat.ty s.mat.nr s.mat.nc f →
      (∀ i j, i < s.mat.nr → j < s.mat.nc → 0 ≤ f i j) → NonNegative s'.mat.val := by
    rintro f ⟨r', e1, e2, e3, e4, e5⟩ hf
    rw [h2] at e1
    obtain rfl := ok_inj e1
    rw [h3]
    intro i j hi hj
    have hi' : i < s.mat.nr := by rw [← e3]; exact hi
    have hj' : j < s.mat.nc := by rw [← e4]; exact hj
    rw [e5 i j hi' hj']
    exact hf i j hi' hj'
  simp only [weightingTable, List.mem_cons, List.not_mem_nil, or_false, Prod.mk.injEq] at hsc
  rcases hsc with ⟨-, rfl⟩ | ⟨-, rfl⟩ | ⟨-, rfl⟩ | ⟨-, rfl⟩
  · exact key (C16_ppmi s.mat hs.rows hs.cols hn) (fun i j hi hj => (C16_nonnegative s.mat.val hn i j hi hj).2)
  · exact key (C16_plmi s.mat hs.rows hs.cols hn) (fun i j hi hj => mul_nonneg (hn i j hi hj) (C16_nonnegative s.mat.val hn i j hi hj).2)
  · exact key (C16_epmi s.mat hs.rows hs.cols hn) (fun i j hi hj => (C16_nonnegative s.mat.val hn i j hi hj).1)
  · refine key (C17_plog s.mat hs.rows hs.cols) (fun i j hi hj => ?_)
    split
    · rename_i h1
      exact Real.log_nonneg h1
    · exact le_refl _

/-- A normalization succeeds. -/
theorem normalization_total (env : Env) {s : Space Str} (hs : Plain s) {t : Str} {sc : ScalingT}
    (hsc : (t, sc) ∈ normalizationTable) : ∃ s', s.apply env (.scaling sc) = .ok s' := by
  have hok : ∃ r, sc.apply s.mat none = .ok r := by
    simp only [normalizationTable, List.mem_cons, List.not_mem_nil, or_false, Prod.mk.injEq] at hsc
    rcases hsc with ⟨-, rfl⟩ | ⟨-, rfl⟩
    · exact ⟨_, show rowNormalization .length s.mat = _ from (C18_row_normalization .length s.mat hs.rows hs.cols).choose_spec.1⟩
    · exact ⟨_, (C19_normalization .sum s.mat hs.rows hs.cols).choose_spec.1⟩
  obtain ⟨r, hok⟩ := hok
  obtain ⟨_, e2, e3⟩ := applyT_shape hs.rows hok
  unfold Space.apply
  simp only [Trans.createOp, Op.apply, hok, ok_bind, pure_eq_ok]
  exact ⟨_, Space.new_ok (Space.resolveMap_some hs.wf.rows) (Space.resolveMap_some hs.wf.cols)
    (by rw [e2]; exact hs.wf.nrows) (fun hne => by rw [e3]; exact hs.wf.ncols hne) (by simp)⟩

/-- A feature selection succeeds and keeps entries. -/
theorem selection_total (env : Env) {s : Space Str} (hs : Plain s) {k : ℕ} {c : Crit} (hk : 0 < k) :
    ∃ s', s.apply env (.featsel k c) = .ok s' ∧ Plain s' ∧ (NonNegative s.mat.val → NonNegative s'.mat.val) := by
  obtain ⟨s', h⟩ := (C05_apply_total env s hs.wf hs.rows hs.cols).2 k c hk hs.flat
  obtain ⟨op, m, hop, op', -, -, -, -, h5, h6, -, -, -⟩ := apply_eq_ok h
  obtain ⟨e1, e2, -, -, f, hf, -⟩ := C05_featsel_keeps_labels env s s' k c hs.wf h
  refine ⟨s', h, ⟨h6, by rw [e1]; exact hs.rows, by rw [e2]; exact lt_min hk hs.cols, by rw [h5]; simp⟩,
    fun hn i j hi hj => ?_⟩
  obtain ⟨g1, g2, -⟩ := hf j hj
  rw [g2 i]
  exact hn i (f j) (lt_of_lt_of_eq hi e1) g1

/-- `Svd` of a space. -/
theorem svd_total {env : Env} (henv : env.Ideal) {s : Space Str} (hs : Plain s) {k : ℕ} (hk : 0 < k) (hm : Reducible s.mat) :
    ∃ s', s.apply env (.dimred (.svd k)) = .ok s' ∧ Plain s' := by
  have : ∃ red V, (DimRedT.svd k).apply env s.mat = .ok (red, V) ∧ red.nr = s.mat.nr ∧ 0 < red.nc ∧ red.nc ≤ k ∧
      V.nr = s.mat.nc ∧ s.mat.mul V = .ok red := by
    cases hty : s.mat.ty with
    | dense => exact (C134_svd_dense henv hty hs.rows hs.cols hk).1 (hm.1 hty)
    | sparse =>
      obtain ⟨i, j, hi, hj, hne⟩ := hm.2 hty
      exact C134_svd_sparse henv hty hi hj hne hk
  obtain ⟨red, V, h1, h2, h3, -⟩ := this
  have ha : s.assert1dim = .ok () := by
    unfold Space.assert1dim
    rw [if_neg (by have := hs.flat; omega)]
  have : ∃ s', s.apply env (.dimred (.svd k)) = .ok s' := by
    unfold Space.apply
    simp only [Trans.createOp, Op.apply, h1, ok_bind, pure_eq_ok, TMat.toDense, ha]
    exact ⟨_, Space.new_ok (Space.resolveMap_some hs.wf.rows) (Space.resolveMap_some Labels.empty)
      (by rw [← hs.wf.nrows]; exact h2) (fun hne => absurd rfl hne) (by simp)⟩
  obtain ⟨s', h⟩ := this
  refine ⟨s', h, ?_⟩
  obtain ⟨op, m, hop, op', -, g2, -, -, g5, g6, -, -, -⟩ := apply_eq_ok h
  simp only [Trans.createOp, Op.apply, h1, ok_bind, pure_eq_ok] at hop
  have := ok_inj hop
  simp only [Prod.mk.injEq] at this
  obtain ⟨-, rfl⟩ := this
  exact ⟨g6, by rw [g2]; show 0 < red.nr; rw [h2]; exact hs.rows, by rw [g2]; exact h3, by rw [g5]; simp⟩

/-- `Nmf` of a non-negative space, the random draws being within range. -/
theorem nmf_total {env : Env} (henv : env.Ideal) {s : Space Str} (hs : Plain s) {k : ℕ} (hk : 0 < k)
    (hn : NonNegative s.mat.val) {ch : Chance} (hch : ch.Valid s.mat) :
    ∃ s', s.apply env (.dimred (.nmf k ch)) = .ok s' ∧ Plain s' := by
  obtain ⟨w0, h0, w, h, -, -, -, e1, e2, -, e3, e4, hp⟩ := C22_factors env s.mat k ch hn hs.rows hs.cols hk hch
  obtain ⟨P, p1, p2⟩ := henv.pinv h.val
  have hpinv : ∃ p, pinv env h = .ok p := by
    obtain ⟨q1, q2, -⟩ := p2
    unfold pinv
    rw [p1, ok_bind]
    exact ⟨_, TMat.ofNumpy_ok (by rw [q1]; exact lt_of_lt_of_eq hs.cols e4.symm) (by rw [q2]; exact lt_of_lt_of_eq hk e3.symm)⟩
  obtain ⟨p, hpinv⟩ := hpinv
  have h1 := hp p hpinv
  have ha : s.assert1dim = .ok () := by
    unfold Space.assert1dim
    rw [if_neg (by have := hs.flat; omega)]
  have : ∃ s', s.apply env (.dimred (.nmf k ch)) = .ok s' := by
    unfold Space.apply
    simp only [Trans.createOp, Op.apply, h1, ok_bind, pure_eq_ok, TMat.toDense, ha]
    exact ⟨_, Space.new_ok (Space.resolveMap_some hs.wf.rows) (Space.resolveMap_some Labels.empty)
      (by rw [← hs.wf.nrows]; exact e1) (fun hne => absurd rfl hne) (by simp)⟩
  obtain ⟨s', h⟩ := this
  refine ⟨s', h, ?_⟩
  obtain ⟨op, m, hop, op', -, g2, -, -, g5, g6, -, -, -⟩ := apply_eq_ok h
  simp only [Trans.createOp, Op.apply, h1, ok_bind, pure_eq_ok] at hop
  have := ok_inj hop
  simp only [Prod.mk.injEq] at this
  obtain ⟨-, rfl⟩ := this
  exact ⟨g6, by rw [g2]; show 0 < w.nr; rw [e1]; exact hs.rows, by rw [g2]; show 0 < w.nc; rw [e2]; exact hk, by rw [g5]; simp⟩

/-! ### The whole run -/

/-- Everything up to the reduction succeeds and keeps the space plain and non-negative. -/
theorem prefix_total (env : Env) {raw : Space Str} (hp : Plain raw) (hn : NonNegative raw.mat.val) {c : Choice}
    {a b : List Trans} (ha : WMeans c.w a) (hb : SMeans c.s b) :
    ∃ s, raw.applyAll env (a ++ b) = .ok s ∧ Plain s ∧ NonNegative s.mat.val := by
  have h1 : ∃ s, raw.applyAll env a = .ok s ∧ Plain s ∧ NonNegative s.mat.val := by
    generalize c.w = x at ha
    cases ha with
    | named hsc =>
      obtain ⟨s, e1, e2, e3⟩ := weighting_total env hp hn hsc
      exact ⟨s, by rw [applyAll_single]; exact e1, e2, e3⟩
    | skip _ => exact ⟨raw, rfl, hp, hn⟩
  obtain ⟨s, e1, e2, e3⟩ := h1
  rw [applyAll_append', e1, ok_bind]
  generalize c.s = x at hb
  cases hb with
  | @named _ _ crit k _ _ _ hk =>
    obtain ⟨s', g1, g2, g3⟩ := selection_total env e2 (c := crit) hk
    exact ⟨s', by rw [applyAll_single]; exact g1, g2, g3 e3⟩
  | skip _ => exact ⟨s, rfl, e2, e3⟩

/-- The condition on the reduction of the choice `c`, whose random draws are `ch`: what `Svd` is applied to can be reduced,
and the random draws of `Nmf` are within range. -/
def ReductionOk (env : Env) (raw : Space Str) (c : Choice) (ch : Chance) : Prop :=
  ∀ a b s, WMeans c.w a → SMeans c.s b → raw.applyAll env (a ++ b) = .ok s →
    (∀ n, RMeans c.r [.dimred (.svd n)] → Reducible s.mat) ∧
    (∀ n, RMeans c.r [.dimred (.nmf n ch)] → ch.Valid s.mat)

/-- Every combination of documented options succeeds. -/
theorem choice_total {env : Env} (henv : env.Ideal) {raw : Space Str} (hp : Plain raw) (hn : NonNegative raw.mat.val)
    {c : Choice} {ch : Chance} (hred : ReductionOk env raw c ch) {a b d e : List Trans} (ha : WMeans c.w a)
    (hb : SMeans c.s b) (hd : RMeans c.r d) (hch : ∀ n x, .dimred (.nmf n x) ∈ d → x = ch) (he : NMeans c.n e) :
    ∃ res, raw.applyAll env (a ++ b ++ d ++ e) = .ok res := by
  obtain ⟨s, e1, e2, e3⟩ := prefix_total env hp hn ha hb
  obtain ⟨r1, r2⟩ := hred a b s ha hb e1
  have h2 : ∃ s', s.applyAll env d = .ok s' ∧ Plain s' := by
    generalize hr : c.r = r at hd r1 r2
    cases hd with
    | svd k1 k2 hk =>
      obtain ⟨s', g1, g2⟩ := svd_total henv e2 hk (r1 _ (.svd k1 k2 hk))
      exact ⟨s', by rw [applyAll_single]; exact g1, g2⟩
    | nmf x k1 k2 hk =>
      obtain rfl := hch _ _ (List.mem_singleton.2 rfl)
      obtain ⟨s', g1, g2⟩ := nmf_total henv e2 hk e3 (r2 _ (.nmf x k1 k2 hk))
      exact ⟨s', by rw [applyAll_single]; exact g1, g2⟩
    | skip _ => exact ⟨s, rfl, e2⟩
  obtain ⟨s', g1, g2⟩ := h2
  rw [applyAll_append', applyAll_append', e1, ok_bind, g1, ok_bind]
  generalize c.n = x at he
  cases he with
  | named hsc =>
    obtain ⟨s2, k1⟩ := normalization_total env g2 hsc
    exact ⟨s2, by rw [applyAll_single]; exact k1⟩
  | skip _ => exact ⟨s', rfl⟩

/-- **C134** With exact numerical routines and documented options, `build_core_space.py` on a consistent, non-empty,
non-negative space succeeds and stores the result of every combination: all it takes is that a space to be reduced by SVD
is not zero (up to `10⁻¹²` when it is dense), that the random numbers drawn by NMF are column and row numbers of the
matrix, and that the output files can be written. -/
theorem C134_core_succeeds {L : Lib} (henv : L.env.Ideal) {fs : Fs} {pre base fmt outDir : Str}
    {ws ss rs ns : List (Option Str)} {gz : Bool} (hb : IsBase pre base)
    (hdoc : ∀ c, choices ws ss rs ns c → c.Documented) (hss : ss ≠ []) (hrs : rs ≠ []) (hns : ns ≠ [])
    {raw : Space Str} (hin : InputSpace L fs pre gz fmt raw) (hp : Plain raw) (hn : NonNegative raw.mat.val)
    (hred : ∀ (i j k : ℕ) (c : Choice), ws[i]? = some c.w → ss[j]? = some c.s → rs[k]? = some c.r →
      ReductionOk L.env raw c (L.chance i j k))
    (hout : OutDir fs (fs.resolve (outDir ++ ['/'])))
    (hnodir : ∀ c, choices ws ss rs ns c → fs.resolve (coreFile outDir base c ++ cs!".pkl") ∉ fs.dirs) :
    ∃ fs', buildSpaces L fs pre fmt outDir none ws ss rs ns gz = .ok fs' ∧ ∀ c, choices ws ss rs ns c →
      ∃ res, c.Result L.env raw res ∧ fs'.read (coreFile outDir base c ++ cs!".pkl") = .ok (L.dump (.space res)) := by
  obtain ⟨fs', h⟩ := C67_succeeds hb hdoc hss hrs hns hin
    (fun i j k c hi hj hk _ a b d e ha hb hd hch he => choice_total henv hp hn (hred i j k c hi hj hk) ha hb hd hch he)
    hout hnodir
  refine ⟨fs', h, fun c hc => ?_⟩
  obtain ⟨raw', k1, k2⟩ := C67_every_combination hb hdoc h
  have e1 := readInput_ok.2 k1
  rw [readInput_ok.2 hin] at e1
  obtain rfl := ok_inj e1
  obtain ⟨res, r1, r2⟩ := k2 c hc
  exact ⟨res, r1, r2.pickle⟩

theorem svdCall_ideal {env : Env} (henv : env.Ideal) (m : TMat ℝ) (k : ℕ) : SvdCallOk env m k := by
  unfold SvdCallOk
  split
  · intro u s vt h
    obtain ⟨u', s', vt', h', hs⟩ := henv.svd m.val
    rw [h] at h'
    injection h' with h'
    simp only [Prod.mk.injEq] at h'
    obtain ⟨rfl, rfl, rfl⟩ := h'
    exact hs
  · intro u s vt h
    obtain ⟨u', s', vt', h', hs⟩ := henv.sparse m.val (k + k / 10)
    rw [h] at h'
    injection h' with h'
    simp only [Prod.mk.injEq] at h'
    obtain ⟨rfl, rfl, rfl⟩ := h'
    exact hs.singular

/-- **C134** Then `build_peripheral_space.py` on the same input and any stored core space whose reduction is not NMF also
succeeds, and stores a space with exactly the rows, row labels, column labels and values of the core space (unpickling the stored core space
must give back what was pickled into it). -/
theorem C134_core_then_peripheral {L : Lib} (henv : L.env.Ideal) {fs : Fs} {pre base fmt outDir : Str}
    {ws ss rs ns : List (Option Str)} {gz : Bool} (hb : IsBase pre base)
    (hdoc : ∀ c, choices ws ss rs ns c → c.Documented) (hss : ss ≠ []) (hrs : rs ≠ []) (hns : ns ≠ [])
    {raw : Space Str} (hin : InputSpace L fs pre gz fmt raw) (hp : Plain raw) (hn : NonNegative raw.mat.val)
    (hops : raw.ops = [])
    (hred : ∀ (i j k : ℕ) (c : Choice), ws[i]? = some c.w → ss[j]? = some c.s → rs[k]? = some c.r →
      ReductionOk L.env raw c (L.chance i j k))
    (hout : OutDir fs (fs.resolve (outDir ++ ['/'])))
    (hnodir : ∀ c, choices ws ss rs ns c → fs.resolve (coreFile outDir base c ++ cs!".pkl") ∉ fs.dirs) :
    ∃ fs1, buildSpaces L fs pre fmt outDir none ws ss rs ns gz = .ok fs1 ∧ ∀ c, choices ws ss rs ns c →
      (∀ d, '_' ∉ d → c.r ≠ some (cs!"nmf_" ++ d)) →
      (∀ o, fs1.read (coreFile outDir base c ++ cs!".pkl") = .ok (L.dump o) → L.undump (L.dump o) = some o) → ∀ fs2 outDir' st, InputSpace L fs2 pre gz fmt raw →
      fs2.read (coreFile outDir base c ++ cs!".pkl") = fs1.read (coreFile outDir base c ++ cs!".pkl") →
      IsStem (coreFile outDir base c ++ cs!".pkl") st → OutDir fs2 (fs2.resolve (outDir' ++ ['/'])) →
      fs2.resolve (periphFile outDir' base st ++ cs!".pkl") ∉ fs2.dirs →
      ∃ fs3 core p, buildPeriph L fs2 pre fmt outDir' none (coreFile outDir base c ++ cs!".pkl") gz = .ok fs3 ∧
        c.Result L.env raw core ∧ fs3.read (periphFile outDir' base st ++ cs!".pkl") = .ok (L.dump (.space p)) ∧
        p.id2row = core.id2row ∧ p.id2col = core.id2col ∧ p.mat = core.mat := by
  obtain ⟨fs1, h1, h2⟩ := C134_core_succeeds henv hb hdoc hss hrs hns hin hp hn hred hout hnodir
  refine ⟨fs1, h1, fun c hc hnmf hdump fs2 outDir' st hin2 hcore2 hst ho2 hfree2 => ?_⟩
  obtain ⟨core, r1, r2⟩ := h2 c hc
  obtain ⟨p, p1, -⟩ := periph_of_core hp.wf hops hp.rows hp.cols r1 hnmf (fun k ts s _ _ => svdCall_ideal henv s.mat k)
  obtain ⟨fs3, g⟩ := C81_succeeds hb hst hin2 ⟨_, hcore2.trans r2, hdump _ r2⟩ p1 ho2 hfree2
  obtain ⟨core', p', k⟩ := C89_core_reproduced hb hdoc hin hp.wf hops hp.rows hp.cols h1 hc hdump hnmf
    (fun k ts s _ _ => svdCall_ideal henv s.mat k) hin2 hcore2 hst g
  exact ⟨fs3, core', p', g, k⟩

end
end Dissect
