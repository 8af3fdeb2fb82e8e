import Verif.Spec.Svd
import Verif.Lemmas.MatOps
import Verif.Model.Operation
import Mathlib.Tactic.Linarith
import Mathlib.Tactic.NormNum
import Mathlib.Tactic.Positivity
import Mathlib.Tactic.IntervalCases
import Verif.Lemmas.Py

/-! # Dimensionality reduction by SVD (C21) -/

namespace Dissect
open Finset

theorem IsSvd.triples {A u : Mat ℝ} {s : List ℝ} {vt : Mat ℝ} (h : IsSvd A u s vt) : SingularTriples A u s vt := by
  refine ⟨h.uRows, h.uCols, h.vRows, h.vCols, h.uOrth, h.vOrth, h.nonneg, h.sorted, ?_⟩
  intro i k hi hk
  have h1 : ∀ j ∈ range A.nc, A.get i j * vt.get k j =
      ∑ l ∈ range s.length, u.get i l * s.getD l 0 * (vt.get l j * vt.get k j) := by
    intro j hj
    rw [h.factor i j hi (Finset.mem_range.1 hj), Finset.sum_mul]
    exact Finset.sum_congr rfl (fun l _ => by ring)
  rw [Finset.sum_congr rfl h1, Finset.sum_comm]
  have h2 : ∀ l ∈ range s.length, ∑ j ∈ range A.nc, u.get i l * s.getD l 0 * (vt.get l j * vt.get k j) =
      if l = k then s.getD k 0 * u.get i k else 0 := by
    intro l hl
    rw [← Finset.mul_sum, h.vOrth l k (Finset.mem_range.1 hl) hk]
    split
    · rename_i e; rw [e]; ring
    · ring
  rw [Finset.sum_congr rfl h2, Finset.sum_ite_eq' (range s.length) k]
  simp [hk]

theorem Mat.smul_one' (A : Mat ℝ) : A.smul 1 = A := Mat.ext_get rfl rfl (fun i j => by simp)

theorem signFix_eq (u v : TMat ℝ) (hu : 0 < u.nr ∧ 0 < u.nc) (hv : 0 < v.nr ∧ 0 < v.nc) :
    ∃ σ : ℝ, σ * σ = 1 ∧ signFix u v = .ok (⟨u.ty, u.val.smul σ⟩, ⟨v.ty, v.val.smul σ⟩) := by
  unfold signFix
  split
  · exact ⟨1, by norm_num, by rw [Mat.smul_one', Mat.smul_one']⟩
  · refine ⟨-1, by norm_num, ?_⟩
    rw [TMat.neg_ok hu.1 hu.2, TMat.neg_ok hv.1 hv.2]
    simp only [ok_bind, pure_eq_ok]
    have e : ∀ A : Mat ℝ, A.neg = A.smul (-1) := fun A => Mat.ext_get rfl rfl (fun i j => by simp)
    rw [e, e]

/-- The reduced matrix and the transformation matrix that keep the first `n` singular triples, up to a common sign. -/
structure Truncation (A u : Mat ℝ) (s : List ℝ) (vt : Mat ℝ) (n : ℕ) (red V : Mat ℝ) : Prop where
  redRows : red.nr = A.nr
  redCols : red.nc = n
  vRows : V.nr = A.nc
  vCols : V.nc = n
  signed : ∃ σ : ℝ, σ * σ = 1 ∧ (∀ i j, i < A.nr → j < n → red.get i j = σ * u.get i j * s.getD j 0) ∧
    ∀ i j, i < A.nc → j < n → V.get i j = σ * vt.get j i

/-- Multiplying the original matrix by the transformation matrix gives the reduced matrix. -/
theorem Truncation.mul {A u : Mat ℝ} {s : List ℝ} {vt : Mat ℝ} {n : ℕ} {red V : Mat ℝ}
    (h : SingularTriples A u s vt) (hn : n ≤ s.length) (ht : Truncation A u s vt n red V) : A.mul V = red := by
  obtain ⟨σ, hσ, h1, h2⟩ := ht.signed
  refine Mat.ext' ht.redRows.symm (by simp [ht.redCols, ht.vCols]) ?_
  intro i j hi hj
  simp only [Mat.mul_nr] at hi
  simp only [Mat.mul_nc, ht.vCols] at hj
  rw [Mat.mul_get, h1 i j hi hj]
  have e : ∀ k ∈ range A.nc, A.get i k * V.get k j = σ * (A.get i k * vt.get j k) := by
    intro k hk
    rw [h2 k j (Finset.mem_range.1 hk) hj]
    ring
  rw [Finset.sum_congr rfl e, ← Finset.mul_sum, h.triple i j hi (by omega)]
  ring

/-- The columns of the reduced matrix are orthogonal and have the singular values as lengths. -/
theorem Truncation.gram {A u : Mat ℝ} {s : List ℝ} {vt : Mat ℝ} {n : ℕ} {red V : Mat ℝ}
    (h : SingularTriples A u s vt) (hn : n ≤ s.length) (ht : Truncation A u s vt n red V) (k l : ℕ) (hk : k < n)
    (hl : l < n) : ∑ i ∈ range A.nr, red.get i k * red.get i l = if k = l then s.getD k 0 ^ 2 else 0 := by
  obtain ⟨σ, hσ, h1, h2⟩ := ht.signed
  have e : ∀ i ∈ range A.nr, red.get i k * red.get i l =
      s.getD k 0 * s.getD l 0 * (u.get i k * u.get i l) := by
    intro i hi
    rw [h1 i k (Finset.mem_range.1 hi) hk, h1 i l (Finset.mem_range.1 hi) hl]
    rw [show σ * u.get i k * s.getD k 0 * (σ * u.get i l * s.getD l 0) =
      (σ * σ) * (s.getD k 0 * s.getD l 0 * (u.get i k * u.get i l)) by ring, hσ, one_mul]
  rw [Finset.sum_congr rfl e, ← Finset.mul_sum, h.uOrth k l (by omega) (by omega)]
  split
  · rename_i e; rw [e]; ring
  · ring

theorem scaleCols_take (u : TMat ℝ) (s : List ℝ) (h : s.length = u.nc) (h1 : 0 < u.nr) (h2 : 0 < u.nc) :
    u.scaleCols ⟨[s.length], s⟩ = .ok ⟨u.ty, u.val.scaleCols (fun j => s.getD j 0)⟩ := by
  have hw : ∀ ty, TMat.wrap ty (u.val.scaleCols (fun j => s.getD j 0)) =
      .ok ⟨ty, u.val.scaleCols (fun j => s.getD j 0)⟩ := fun ty => TMat.wrap_ok_pos h1 h2
  unfold TMat.scaleCols
  cases hty : u.ty with
  | dense =>
    simp only
    rw [if_pos (Or.inr (by rw [h])), hw]
  | sparse =>
    simp only
    rw [if_pos h, hw]

theorem getD_take {l : List ℝ} {n j : ℕ} (h : j < n) : (l.take n).getD j 0 = l.getD j 0 := by
  simp [List.getD, List.getElem?_take_of_lt h]

/-- The common tail of the two implementations. -/
theorem truncation_of_factors {A u : Mat ℝ} {s : List ℝ} {vt : Mat ℝ} {n : ℕ}
    (hn0 : 0 < n) (hn : n ≤ s.length) (hr : 0 < A.nr) (hc : 0 < A.nc) (ty : MTy) (u' v' : Mat ℝ)
    (hu' : u'.nr = A.nr ∧ u'.nc = n) (hug : ∀ i j, j < n → u'.get i j = u.get i j)
    (hv' : v'.nr = A.nc ∧ v'.nc = n) (hvg : ∀ i j, j < n → v'.get i j = vt.get j i) :
    ∃ σ : ℝ, σ * σ = 1 ∧ signFix ⟨ty, u'⟩ ⟨ty, v'⟩ = .ok (⟨ty, u'.smul σ⟩, ⟨ty, v'.smul σ⟩) ∧
      ∃ red V, TMat.scaleCols ⟨ty, u'.smul σ⟩ ⟨[(s.take n).length], s.take n⟩ = .ok ⟨ty, red⟩ ∧ V = v'.smul σ ∧
        Truncation A u s vt n red V := by
  obtain ⟨σ, hσ, hs⟩ := signFix_eq (⟨ty, u'⟩ : TMat ℝ) ⟨ty, v'⟩ ⟨by simp [TMat.nr, hu'.1, hr], by simp [TMat.nc, hu'.2, hn0]⟩
    ⟨by simp [TMat.nr, hv'.1, hc], by simp [TMat.nc, hv'.2, hn0]⟩
  refine ⟨σ, hσ, hs, (u'.smul σ).scaleCols (fun j => (s.take n).getD j 0), v'.smul σ, ?_, rfl, ?_⟩
  · exact scaleCols_take ⟨ty, u'.smul σ⟩ (s.take n) (by simp [TMat.nc, hu'.2, hn]) (by simp [TMat.nr, hu'.1, hr])
      (by simp [TMat.nc, hu'.2, hn0])
  · refine ⟨hu'.1, hu'.2, hv'.1, hv'.2, σ, hσ, ?_, ?_⟩
    · intro i j hi hj
      simp only [Mat.scaleCols_get, Mat.smul_get, getD_take hj, hug i j hj]
    · intro i j hi hj
      simp only [Mat.smul_get, hvg i j hj]

/-- Number of singular values that the dense implementation regards as non-zero. -/
noncomputable def numRank (s : List ℝ) : ℕ := (s.filter (fun x => decide (svdTol < x))).length

theorem numRank_le (s : List ℝ) : numRank s ≤ s.length := List.length_filter_le _ _

/-- **C21** dense reduction: `min(k, rank)` columns, exact projection. -/
theorem C21_dense (env : Env) (m : TMat ℝ) (k : ℕ) (u : Mat ℝ) (s : List ℝ) (vt : Mat ℝ) (hty : m.ty = .dense)
    (hr : 0 < m.nr) (hc : 0 < m.nc) (hk : 0 < k) (he : env.npSvd m.val = .ok (u, s, vt)) (hsvd : IsSvd m.val u s vt)
    (hrank : ∃ x ∈ s, svdTol < x) :
    ∃ red V, (DimRedT.svd k).apply env m = .ok (red, V) ∧ red.nr = m.nr ∧
      red.nc = min k (s.filter (fun x => decide (svdTol < x))).length ∧
      0 < red.nc ∧ V.nr = m.nc ∧ m.mul V = .ok red ∧
      Truncation m.val u s vt (min k (numRank s)) red.val V.val := by
  have h := hsvd.triples
  have hrl := numRank_le s
  have hrpos : 0 < numRank s := by
    obtain ⟨x, hx, hxt⟩ := hrank
    exact List.length_pos_of_mem (List.mem_filter.2 ⟨hx, by simpa using hxt⟩)
  have hno : min (min u.nc k) (numRank s) = min k (numRank s) := by rw [h.uCols]; omega
  set n := min k (numRank s) with hn
  have hn0 : 0 < n := by omega
  have hnl : n ≤ s.length := by omega
  have hur : (u.takeCols n).nr = m.nr ∧ (u.takeCols n).nc = n :=
    ⟨h.uRows, Mat.takeCols_nc (by rw [h.uCols]; exact hnl)⟩
  have hvr : (vt.takeRows n).transpose.nr = m.nc ∧ (vt.takeRows n).transpose.nc = n :=
    ⟨h.vCols, Mat.takeRows_nr (by rw [h.vRows]; exact hnl)⟩
  obtain ⟨σ, hσ, hsf, red, V, hred, hV, htr⟩ := truncation_of_factors (s := s) (u := u) (vt := vt) (A := m.val) hn0 hnl hr hc .dense (u.takeCols n)
    (vt.takeRows n).transpose hur (fun i j hj => Mat.takeCols_get i hj (by rw [h.uCols]; exact hnl)) hvr
    (fun i j hj => by
      rw [Mat.transpose_get]
      exact Mat.takeRows_get i hj (by rw [h.vRows]; exact hnl))
  refine ⟨⟨.dense, red⟩, ⟨.dense, V⟩, ?_, htr.redRows, htr.redCols, by rw [show (⟨.dense, red⟩ : TMat ℝ).nc = n from htr.redCols]; exact hn0, htr.vRows, ?_, htr⟩
  · simp only [DimRedT.apply, svd, if_neg hk.ne', hty, denseSvd, he, ok_bind]
    have hno' : min (min u.nc k) (s.filter (fun x => decide (svdTol < x))).length = n := hno
    rw [hno', TMat.ofNumpy_ok (by rw [hur.1]; exact hr) (by rw [hur.2]; exact hn0),
      TMat.ofNumpy_ok (by rw [hvr.1]; exact hc) (by rw [hvr.2]; exact hn0)]
    simp only [ok_bind, hsf, pure_eq_ok, hred, hV]
  · rw [TMat.mul_ok hty htr.vRows.symm hr (by show 0 < V.nc; rw [htr.vCols]; exact hn0)]
    rw [htr.mul h hnl, hty]

/-- **C21** sparse reduction: `min(k, dimensions returned)` columns, exact projection. -/
theorem C21_sparse (env : Env) (m : TMat ℝ) (k : ℕ) (ut : Mat ℝ) (s : List ℝ) (vt : Mat ℝ) (hty : m.ty = .sparse)
    (hr : 0 < m.nr) (hc : 0 < m.nc) (hk : 0 < k) (he : env.sparseSvd m.val (k + k / 10) = .ok (ut, s, vt))
    (hsvd : SingularTriples m.val ut.transpose s vt) (hpos : 0 < s.length) :
    ∃ red V, (DimRedT.svd k).apply env m = .ok (red, V) ∧ red.nr = m.nr ∧ red.nc = min k s.length ∧
      V.nr = m.nc ∧ m.mul V = .ok red ∧ Truncation m.val ut.transpose s vt (min k s.length) red.val V.val := by
  set n := min k s.length with hn
  have hn0 : 0 < n := by omega
  have hnl : n ≤ s.length := by omega
  have hucols := hsvd.uCols
  have hur : (ut.transpose.takeCols n).nr = m.nr ∧ (ut.transpose.takeCols n).nc = n :=
    ⟨hsvd.uRows, Mat.takeCols_nc (by rw [hucols]; exact hnl)⟩
  have hvr : (vt.transpose.takeCols n).nr = m.nc ∧ (vt.transpose.takeCols n).nc = n :=
    ⟨hsvd.vCols, Mat.takeCols_nc (by rw [Mat.transpose_nc, hsvd.vRows]; exact hnl)⟩
  obtain ⟨σ, hσ, hsf, red, V, hred, hV, htr⟩ := truncation_of_factors (s := s) (u := ut.transpose) (vt := vt) (A := m.val) hn0 hnl hr hc .sparse
    (ut.transpose.takeCols n) (vt.transpose.takeCols n) hur
    (fun i j hj => Mat.takeCols_get i hj (by rw [hucols]; exact hnl)) hvr
    (fun i j hj => by
      rw [Mat.takeCols_get i hj (by rw [Mat.transpose_nc, hsvd.vRows]; exact hnl)]; rfl)
  refine ⟨⟨.sparse, red⟩, ⟨.sparse, V⟩, ?_, htr.redRows, htr.redCols, htr.vRows, ?_, htr⟩
  · simp only [DimRedT.apply, svd, if_neg hk.ne', hty, sparseSvd, he, ok_bind]
    rw [TMat.ofNumpy_ok (by rw [hsvd.uRows]; exact hr) (by rw [hucols]; exact hpos),
      TMat.ofNumpy_ok (A := vt.transpose) (by rw [Mat.transpose_nr, hsvd.vCols]; exact hc)
        (by rw [Mat.transpose_nc, hsvd.vRows]; exact hpos)]
    have hno : min (⟨.sparse, ut.transpose⟩ : TMat ℝ).nc k = n := by
      show min ut.transpose.nc k = n
      rw [hucols, hn]; omega
    simp only [ok_bind, hno, TMat.wrap, hsf, pure_eq_ok, hred, hV]
  · rw [TMat.mul_ok hty htr.vRows.symm hr (by show 0 < V.nc; rw [htr.vCols]; exact hn0)]
    rw [htr.mul hsvd hnl, hty]

/-- **C21** the columns of the reduced matrix are pairwise orthogonal, with the largest singular values, in
decreasing order, as their lengths. (Applies to both `Truncation`s above.) -/
theorem C21_columns_orthogonal (A u : Mat ℝ) (s : List ℝ) (vt : Mat ℝ) (n : ℕ) (red V : Mat ℝ)
    (h : SingularTriples A u s vt) (hn : n ≤ s.length) (ht : Truncation A u s vt n red V) (k l : ℕ) (hk : k < n)
    (hl : l < n) : ∑ i ∈ range A.nr, red.get i k * red.get i l = (if k = l then s.getD k 0 ^ 2 else 0) :=
  ht.gram h hn k l hk hl

theorem sorted_filter {s : List ℝ} (hs : s.Pairwise (fun x y => y ≤ x)) {j : ℕ} (hj : numRank s ≤ j) (hl : j < s.length) :
    s.getD j 0 ≤ svdTol := by
  induction s generalizing j with
  | nil => simp at hl
  | cons x s ih =>
    rw [List.pairwise_cons] at hs
    by_cases hx : svdTol < x
    · have hr : numRank (x :: s) = numRank s + 1 := by simp [numRank, hx]
      obtain ⟨j, rfl⟩ : ∃ i, j = i + 1 := ⟨j - 1, by omega⟩
      have := ih hs.2 (j := j) (by omega) (by simpa using hl)
      simpa using this
    · cases j with
      | zero => simpa using not_lt.1 hx
      | succ j =>
        have hl' : j < s.length := by simpa using hl
        have hmem : s[j] ∈ s := List.getElem_mem hl'
        have := hs.1 _ hmem
        have e : (x :: s).getD (j + 1) 0 = s[j] := by simp [List.getD, List.getElem?_eq_getElem hl']
        rw [e]
        exact this.trans (not_lt.1 hx)

theorem gram_rows {A u : Mat ℝ} {s : List ℝ} {vt : Mat ℝ} (h : IsSvd A u s vt) {i i' : ℕ} (hi : i < A.nr)
    (hi' : i' < A.nr) : ∑ j ∈ range A.nc, A.get i j * A.get i' j =
      ∑ l ∈ range s.length, s.getD l 0 ^ 2 * (u.get i l * u.get i' l) := by
  have e : ∀ j ∈ range A.nc, A.get i j * A.get i' j =
      ∑ l ∈ range s.length, (u.get i' l * s.getD l 0) * (A.get i j * vt.get l j) := by
    intro j hj
    rw [h.factor i' j hi' (Finset.mem_range.1 hj), Finset.mul_sum]
    exact Finset.sum_congr rfl (fun l _ => by ring)
  rw [Finset.sum_congr rfl e, Finset.sum_comm]
  refine Finset.sum_congr rfl (fun l hl => ?_)
  rw [← Finset.mul_sum, h.triples.triple i l hi (Finset.mem_range.1 hl)]
  ring

theorem gram_reduced {A u : Mat ℝ} {s : List ℝ} {vt : Mat ℝ} {n : ℕ} {red V : Mat ℝ}
    (ht : Truncation A u s vt n red V) {i i' : ℕ} (hi : i < A.nr)
    (hi' : i' < A.nr) : ∑ j ∈ range n, red.get i j * red.get i' j =
      ∑ l ∈ range n, s.getD l 0 ^ 2 * (u.get i l * u.get i' l) := by
  obtain ⟨σ, hσ, h1, _⟩ := ht.signed
  refine Finset.sum_congr rfl (fun l hl => ?_)
  rw [h1 i l hi (Finset.mem_range.1 hl), h1 i' l hi' (Finset.mem_range.1 hl)]
  rw [show σ * u.get i l * s.getD l 0 * (σ * u.get i' l * s.getD l 0) =
    (σ * σ) * (s.getD l 0 ^ 2 * (u.get i l * u.get i' l)) by ring, hσ, one_mul]

/-- **C21** when `k` is at least the rank (number of singular values above the tolerance 1e-12), the reduced vectors
have the inner products of the original rows, up to `(number of singular values) · 1e-24`; exactly, when no singular
value lies strictly between 0 and the tolerance. -/
theorem C21_inner_products (env : Env) (m : TMat ℝ) (k : ℕ) (u : Mat ℝ) (s : List ℝ) (vt : Mat ℝ)
    (hty : m.ty = .dense) (hr : 0 < m.nr) (hc : 0 < m.nc) (hk : 0 < k) (he : env.npSvd m.val = .ok (u, s, vt))
    (hsvd : IsSvd m.val u s vt) (hrank : ∃ x ∈ s, svdTol < x)
    (hkr : (s.filter (fun x => decide (svdTol < x))).length ≤ k) :
    ∃ red V, (DimRedT.svd k).apply env m = .ok (red, V) ∧ ∀ i i', i < m.nr → i' < m.nr →
      |∑ j ∈ range m.nc, m.val.get i j * m.val.get i' j - ∑ j ∈ range red.nc, red.val.get i j * red.val.get i' j| ≤
        s.length * (1 / 10 ^ 12) ^ 2 ∧
      ((∀ x ∈ s, x ≤ svdTol → x = 0) →
        ∑ j ∈ range red.nc, red.val.get i j * red.val.get i' j = ∑ j ∈ range m.nc, m.val.get i j * m.val.get i' j) := by
  obtain ⟨red, V, hap, _, hnc, _, _, _, htr⟩ := C21_dense env m k u s vt hty hr hc hk he hsvd hrank
  refine ⟨red, V, hap, fun i i' hi hi' => ?_⟩
  have hnk : min k (numRank s) = numRank s := min_eq_right hkr
  have hnc' : red.nc = numRank s := by rw [hnc]; exact hnk
  rw [hnk] at htr
  rw [hnc', gram_reduced htr hi hi', gram_rows hsvd hi hi']
  have hrl := numRank_le s
  have hsplit : ∑ l ∈ range s.length, s.getD l 0 ^ 2 * (u.get i l * u.get i' l) =
      ∑ l ∈ range (numRank s), s.getD l 0 ^ 2 * (u.get i l * u.get i' l) +
      ∑ l ∈ Ico (numRank s) s.length, s.getD l 0 ^ 2 * (u.get i l * u.get i' l) :=
    (Finset.sum_range_add_sum_Ico _ hrl).symm
  rw [hsplit]
  have hu1 : ∀ a l, a < m.nr → l < s.length → |u.get a l| ≤ 1 := by
    intro a l ha hl
    have := hsvd.uOrth l l hl hl
    simp only [if_true] at this
    have h2 : u.get a l * u.get a l ≤ 1 := by
      rw [← this]
      exact Finset.single_le_sum (f := fun b => u.get b l * u.get b l) (fun b _ => mul_self_nonneg _)
        (Finset.mem_range.2 ha)
    exact abs_le_one_iff_mul_self_le_one.2 h2
  constructor
  · rw [add_sub_cancel_left]
    calc |∑ l ∈ Ico (numRank s) s.length, s.getD l 0 ^ 2 * (u.get i l * u.get i' l)|
        ≤ ∑ l ∈ Ico (numRank s) s.length, |s.getD l 0 ^ 2 * (u.get i l * u.get i' l)| :=
          Finset.abs_sum_le_sum_abs _ _
      _ ≤ ∑ l ∈ Ico (numRank s) s.length, (1 / 10 ^ 12 : ℝ) ^ 2 := by
          refine Finset.sum_le_sum (fun l hl => ?_)
          rw [Finset.mem_Ico] at hl
          have h0 : 0 ≤ s.getD l 0 := by
            rw [List.getD, List.getElem?_eq_getElem hl.2]
            exact hsvd.nonneg _ (List.getElem_mem hl.2)
          have ht := sorted_filter hsvd.sorted hl.1 hl.2
          have hsq : s.getD l 0 ^ 2 ≤ (1 / 10 ^ 12 : ℝ) ^ 2 := pow_le_pow_left₀ h0 ht 2
          rw [abs_mul, abs_mul, abs_of_nonneg (sq_nonneg _)]
          have h3 : |u.get i l| * |u.get i' l| ≤ 1 :=
            mul_le_one₀ (hu1 i l hi hl.2) (abs_nonneg _) (hu1 i' l hi' hl.2)
          calc s.getD l 0 ^ 2 * (|u.get i l| * |u.get i' l|) ≤ s.getD l 0 ^ 2 * 1 :=
                mul_le_mul_of_nonneg_left h3 (sq_nonneg _)
            _ ≤ _ := by rw [mul_one]; exact hsq
      _ ≤ s.length * (1 / 10 ^ 12) ^ 2 := by
          rw [Finset.sum_const, Nat.card_Ico, nsmul_eq_mul]
          have : ((s.length - numRank s : ℕ) : ℝ) ≤ s.length := by
            exact_mod_cast Nat.sub_le _ _
          exact mul_le_mul_of_nonneg_right this (by positivity)
  · intro hz
    have : ∑ l ∈ Ico (numRank s) s.length, s.getD l 0 ^ 2 * (u.get i l * u.get i' l) = 0 := by
      refine Finset.sum_eq_zero (fun l hl => ?_)
      rw [Finset.mem_Ico] at hl
      have ht := sorted_filter hsvd.sorted hl.1 hl.2
      have h0 : s.getD l 0 = 0 := by
        have hm : s.getD l 0 ∈ s := by
          rw [List.getD, List.getElem?_eq_getElem hl.2]
          exact List.getElem_mem hl.2
        exact hz _ hm ht
      rw [h0]; ring
    rw [this, add_zero]

/-- **C21** a matrix all of whose singular values are below the tolerance cannot be reduced: `ValueError`. -/
theorem C21_dense_rank_zero (env : Env) (m : TMat ℝ) (k : ℕ) (u : Mat ℝ) (s : List ℝ) (vt : Mat ℝ)
    (hty : m.ty = .dense) (he : env.npSvd m.val = .ok (u, s, vt)) (hrank : ∀ x ∈ s, x ≤ 1 / 10 ^ 12) :
    (DimRedT.svd k).apply env m = .error .valueError := by
  replace hrank : ∀ x ∈ s, x ≤ svdTol := hrank
  have h0 : (s.filter (fun x => decide (svdTol < x))).length = 0 := by
    rw [List.length_eq_zero_iff, List.filter_eq_nil_iff]
    intro x hx
    simpa using hrank x hx
  simp only [DimRedT.apply, svd, hty]
  split
  · rfl
  · simp only [denseSvd, he, h0, ok_bind]
    rw [show min (min u.nc k) 0 = 0 by omega]
    have : TMat.ofNumpy .dense (u.takeCols 0) = .error .valueError := by
      unfold TMat.ofNumpy
      rw [if_pos (Or.inr (by simp [Mat.takeCols]))]
    rw [this]
    rfl

/-- **C21** reducing to dimension 0 is rejected, by the constructor and by the linear algebra routine. -/
theorem C21_dimension_zero (env : Env) (m : TMat ℝ) (k : ℤ) :
    svd env m 0 = .error .valueError ∧ (k ≤ 0 → checkDim k = .error .valueError) :=
  ⟨by simp [svd], fun h => by unfold checkDim; rw [if_pos h]⟩

/-- The matrix `diag(3, 2)`, the identity, and an environment that knows the decomposition of the former. -/
noncomputable def exDiag : Mat ℝ := Mat.of 2 2 (fun i j => if i = j then (if i = 0 then 3 else 2) else 0)
noncomputable def exOne : Mat ℝ := Mat.of 2 2 (fun i j => if i = j then 1 else 0)
noncomputable def exEnv : Env :=
  ⟨fun _ => .ok (exOne, [3, 2], exOne), fun _ _ => .ok (exOne, [3, 2], exOne), fun A => .ok A.transpose, fun _ _ => .ok exOne⟩

theorem ex_isSvd : IsSvd exDiag exOne [3, 2] exOne := by
  refine ⟨rfl, rfl, rfl, rfl, ?_, ?_, ?_, ?_, ?_⟩
  · intro k l hk hl
    simp only [List.length_cons, List.length_nil] at hk hl
    have : exDiag.nr = 2 := rfl
    interval_cases k <;> interval_cases l <;> simp [exDiag, exOne, Mat.of_get, Finset.sum_range_succ]
  · intro k l hk hl
    simp only [List.length_cons, List.length_nil] at hk hl
    have : exDiag.nc = 2 := rfl
    interval_cases k <;> interval_cases l <;> simp [exDiag, exOne, Mat.of_get, Finset.sum_range_succ]
  · intro x hx; simp at hx; rcases hx with rfl | rfl <;> norm_num
  · simp; norm_num
  · intro i j hi hj
    have h1 : exDiag.nr = 2 := rfl
    have h2 : exDiag.nc = 2 := rfl
    rw [h1] at hi
    rw [h2] at hj
    interval_cases i <;> interval_cases j <;> simp [exDiag, exOne, Mat.of_get, Finset.sum_range_succ]

/-- Non-vacuity: the hypotheses of C21 are met by `diag(3, 2)`. -/
example : exEnv.npSvd exDiag = .ok (exOne, [3, 2], exOne) ∧ IsSvd exDiag exOne [3, 2] exOne ∧
    (∃ x ∈ ([3, 2] : List ℝ), svdTol < x) ∧ exDiag.get 1 1 = 2 ∧ 0 < exDiag.nr ∧ 0 < exDiag.nc :=
  ⟨rfl, ex_isSvd, ⟨3, by simp, by norm_num [svdTol]⟩, by norm_num [exDiag, Mat.of_get], by simp [exDiag],
    by simp [exDiag]⟩

end Dissect
