import Verif.Spec.Backend
import Verif.Lemmas.Regression
import Mathlib.Analysis.Matrix.Spectrum

/-!
# The decompositions exist

Every real matrix has a singular value decomposition, a pseudo-inverse and a shortest least-squares solution, so a back end
that keeps the promises of numpy for every input is possible.
-/

namespace Dissect
open Finset
noncomputable section

/-- Diagonalisation of a symmetric matrix, with decreasing eigenvalues. -/
theorem exists_eigen {n : ℕ} (M : Matrix (Fin n) (Fin n) ℝ) (hM : M.IsHermitian) :
    ∃ (V : Matrix (Fin n) (Fin n) ℝ) (lam : Fin n → ℝ), Antitone lam ∧ V.transpose * V = 1 ∧ V * V.transpose = 1 ∧
      ∀ k, M.mulVec (fun j => V j k) = lam k • (fun j => V j k) := by
  set e0 : Fin (Fintype.card (Fin n)) ≃ Fin n := Fintype.equivOfCardEq (Fintype.card_fin _) with he0
  set e : Fin n ≃ Fin n := (finCongr (Fintype.card_fin n).symm).trans e0 with he
  set U : Matrix (Fin n) (Fin n) ℝ := (hM.eigenvectorUnitary : Matrix (Fin n) (Fin n) ℝ) with hU
  have hUU : U.transpose * U = 1 := by
    have := Unitary.coe_star_mul_self hM.eigenvectorUnitary
    rwa [Matrix.star_eq_conjTranspose, Matrix.conjTranspose_eq_transpose_of_trivial] at this
  have hVt : (U.submatrix id e).transpose * U.submatrix id e = 1 := by
    have h := Matrix.submatrix_mul_equiv U.transpose U e (Equiv.refl _) e
    rw [hUU, Matrix.submatrix_one_equiv] at h
    exact h
  refine ⟨U.submatrix id e, fun k => hM.eigenvalues (e k), ?_, hVt, ?_, ?_⟩
  · intro a b hab
    show hM.eigenvalues₀ (e0.symm (e b)) ≤ hM.eigenvalues₀ (e0.symm (e a))
    apply hM.eigenvalues₀_antitone
    simp only [he, Equiv.trans_apply, Equiv.symm_apply_apply]
    exact hab
  · exact mul_eq_one_comm.1 hVt
  · intro k
    have := hM.mulVec_eigenvectorBasis (e k)
    exact this

/-- Every real matrix has a singular value decomposition; the singular values in it are positive. -/
theorem exists_svd_pos (A : Mat ℝ) : ∃ (u : Mat ℝ) (s : List ℝ) (vt : Mat ℝ), IsSvd A u s vt ∧ ∀ x ∈ s, 0 < x := by
  set m := A.nr with hm
  set n := A.nc with hn
  have hsymm : ((A.toM m n).transpose * A.toM m n).IsHermitian := by
    unfold Matrix.IsHermitian
    rw [Matrix.conjTranspose_eq_transpose_of_trivial, Matrix.transpose_mul, Matrix.transpose_transpose]
  obtain ⟨V, lam0, hanti, hVV, hVV', heig⟩ := exists_eigen _ hsymm
  set v : ℕ → ℕ → ℝ := fun k j => if h : j < n ∧ k < n then V ⟨j, h.1⟩ ⟨k, h.2⟩ else 0 with hv
  set lam : ℕ → ℝ := fun k => if h : k < n then lam0 ⟨k, h⟩ else 0 with hlam
  have hvF : ∀ (k j : Fin n), v k j = V j k := by
    intro k j
    simp only [hv]
    rw [dif_pos ⟨j.2, k.2⟩]
  have orth : ∀ k l, k < n → l < n → ∑ j ∈ range n, v k j * v l j = if k = l then 1 else 0 := by
    intro k l hk hl
    rw [← Fin.sum_univ_eq_sum_range (fun j => v k j * v l j)]
    have h := congrFun (congrFun hVV ⟨k, hk⟩) ⟨l, hl⟩
    rw [Matrix.mul_apply, Matrix.one_apply] at h
    simp only [Matrix.transpose_apply, Fin.mk.injEq] at h
    rw [← h]
    refine Finset.sum_congr rfl fun j _ => ?_
    rw [← hvF ⟨k, hk⟩ j, ← hvF ⟨l, hl⟩ j]
  have compl : ∀ i j, i < n → j < n → ∑ k ∈ range n, v k i * v k j = if i = j then 1 else 0 := by
    intro i j hi hj
    rw [← Fin.sum_univ_eq_sum_range (fun k => v k i * v k j)]
    have h := congrFun (congrFun hVV' ⟨i, hi⟩) ⟨j, hj⟩
    rw [Matrix.mul_apply, Matrix.one_apply] at h
    simp only [Matrix.transpose_apply, Fin.mk.injEq] at h
    rw [← h]
    refine Finset.sum_congr rfl fun k _ => ?_
    rw [← hvF k ⟨i, hi⟩, ← hvF k ⟨j, hj⟩]
  have eig : ∀ k j, k < n → j < n →
      ∑ q ∈ range n, (∑ i ∈ range m, A.get i j * A.get i q) * v k q = lam k * v k j := by
    intro k j hk hj
    have h := congrFun (heig ⟨k, hk⟩) ⟨j, hj⟩
    simp only [Matrix.mulVec, dotProduct, Matrix.mul_apply, Matrix.transpose_apply, Pi.smul_apply, smul_eq_mul,
      Mat.toM, Matrix.of_apply] at h
    rw [← Fin.sum_univ_eq_sum_range (fun q => (∑ i ∈ range m, A.get i j * A.get i q) * v k q)]
    have e1 : lam k = lam0 ⟨k, hk⟩ := by simp only [hlam]; rw [dif_pos hk]
    rw [e1, show v k j = V ⟨j, hj⟩ ⟨k, hk⟩ from hvF ⟨k, hk⟩ ⟨j, hj⟩, ← h]
    refine Finset.sum_congr rfl fun q _ => ?_
    rw [← hvF ⟨k, hk⟩ q, ← Fin.sum_univ_eq_sum_range (fun i => A.get i j * A.get i q)]
  set w : ℕ → ℕ → ℝ := fun k i => ∑ j ∈ range n, A.get i j * v k j with hw
  have ww : ∀ k l, k < n → l < n → ∑ i ∈ range m, w k i * w l i = if k = l then lam l else 0 := by
    intro k l hk hl
    have e1 : ∑ i ∈ range m, w k i * w l i =
        ∑ j ∈ range n, v k j * ∑ q ∈ range n, (∑ i ∈ range m, A.get i j * A.get i q) * v l q := by
      have e0 : ∀ i, w k i * w l i = ∑ j ∈ range n, ∑ q ∈ range n, A.get i j * v k j * (A.get i q * v l q) :=
        fun i => Finset.sum_mul_sum _ _ _ _
      rw [Finset.sum_congr rfl fun i _ => e0 i, Finset.sum_comm]
      refine Finset.sum_congr rfl fun j _ => ?_
      rw [Finset.sum_comm, Finset.mul_sum]
      refine Finset.sum_congr rfl fun q _ => ?_
      rw [Finset.sum_mul, Finset.mul_sum]
      refine Finset.sum_congr rfl fun i _ => ?_
      ring
    rw [e1]
    have e2 : ∑ j ∈ range n, v k j * ∑ q ∈ range n, (∑ i ∈ range m, A.get i j * A.get i q) * v l q =
        lam l * ∑ j ∈ range n, v k j * v l j := by
      rw [Finset.mul_sum]
      refine Finset.sum_congr rfl fun j hj => ?_
      rw [eig l j hl (Finset.mem_range.1 hj)]
      ring
    rw [e2, orth k l hk hl]
    split <;> simp
  have lam_eq : ∀ k, k < n → lam k = ∑ i ∈ range m, w k i * w k i := by
    intro k hk
    rw [ww k k hk hk, if_pos rfl]
  have lam_nonneg : ∀ k, 0 ≤ lam k := by
    intro k
    by_cases hk : k < n
    · rw [lam_eq k hk]; exact Finset.sum_nonneg fun i _ => mul_self_nonneg _
    · simp only [hlam]; rw [dif_neg hk]
  have lam_anti : ∀ k l, k ≤ l → l < n → lam l ≤ lam k := by
    intro k l hkl hl
    simp only [hlam]
    rw [dif_pos hl, dif_pos (lt_of_le_of_lt hkl hl)]
    exact hanti hkl
  obtain ⟨r, hrn, hr1, hr2⟩ : ∃ r, r ≤ n ∧ (∀ k, k < r → 0 < lam k) ∧ ∀ k, r ≤ k → k < n → lam k = 0 := by
    classical
    have hex : ∃ k, ¬ 0 < lam k := ⟨n, by simp [hlam]⟩
    refine ⟨Nat.find hex, Nat.find_min' hex (by simp [hlam]), fun k hk => not_not.1 (Nat.find_min hex hk), ?_⟩
    intro k h1 h2
    have h3 : lam (Nat.find hex) ≤ 0 := le_of_not_gt (Nat.find_spec hex)
    have h4 := lam_anti _ _ h1 h2
    have h5 := lam_nonneg k
    exact le_antisymm (h4.trans h3) h5
  have w_zero : ∀ k i, r ≤ k → k < n → i < m → w k i = 0 := by
    intro k i h1 h2 hi
    have h := (hr2 k h1 h2).symm.trans (lam_eq k h2)
    have := (Finset.sum_eq_zero_iff_of_nonneg (fun x _ => mul_self_nonneg (w k x))).1 h.symm i (Finset.mem_range.2 hi)
    exact mul_self_eq_zero.1 this
  set s : List ℝ := (List.range r).map (fun k => Real.sqrt (lam k)) with hs
  have hlen : s.length = r := by simp [hs]
  have hsget : ∀ k, k < r → s.getD k 0 = Real.sqrt (lam k) := by
    intro k hk
    rw [hs, List.getD_eq_getElem?_getD, List.getElem?_map, List.getElem?_range hk]
    rfl
  have hspos : ∀ k, k < r → 0 < Real.sqrt (lam k) := fun k hk => Real.sqrt_pos.2 (hr1 k hk)
  have hpos : ∀ x ∈ s, 0 < x := by
    intro x hx
    simp only [hs, List.mem_map, List.mem_range] at hx
    obtain ⟨k, hk, rfl⟩ := hx
    exact hspos k hk
  refine ⟨Mat.of m r (fun i k => w k i / Real.sqrt (lam k)), s, Mat.of r n v, ?_, hpos⟩
  refine ⟨rfl, hlen.symm, hlen.symm, rfl, ?_, ?_, fun x hx => (hpos x hx).le, ?_, ?_⟩
  · intro k l hk hl
    rw [hlen] at hk hl
    have e : ∀ i ∈ range m, (Mat.of m r (fun i k => w k i / Real.sqrt (lam k))).get i k *
        (Mat.of m r (fun i k => w k i / Real.sqrt (lam k))).get i l =
        (w k i * w l i) * (Real.sqrt (lam k) * Real.sqrt (lam l))⁻¹ := by
      intro i hi
      rw [Mat.of_get_lt (Finset.mem_range.1 hi) hk, Mat.of_get_lt (Finset.mem_range.1 hi) hl]
      rw [mul_inv]
      ring
    rw [Finset.sum_congr rfl e, ← Finset.sum_mul, ww k l (by omega) (by omega)]
    by_cases h : k = l
    · subst h
      rw [if_pos rfl, if_pos rfl, Real.mul_self_sqrt (lam_nonneg k), mul_inv_cancel₀ (hr1 k hk).ne']
    · rw [if_neg h, if_neg h, zero_mul]
  · intro k l hk hl
    rw [hlen] at hk hl
    have e : ∀ j ∈ range n, (Mat.of r n v).get k j * (Mat.of r n v).get l j = v k j * v l j := by
      intro j hj
      rw [Mat.of_get_lt hk (Finset.mem_range.1 hj), Mat.of_get_lt hl (Finset.mem_range.1 hj)]
    rw [Finset.sum_congr rfl e, orth k l (by omega) (by omega)]
  · rw [hs, List.pairwise_map]
    refine List.Pairwise.imp_of_mem ?_ (List.pairwise_lt_range)
    intro a b ha hb hab
    rw [List.mem_range] at ha hb
    exact Real.sqrt_le_sqrt (lam_anti a b hab.le (by omega))
  · intro i j hi hj
    rw [hlen]
    have e : ∀ k ∈ range r, (Mat.of m r (fun i k => w k i / Real.sqrt (lam k))).get i k * s.getD k 0 * (Mat.of r n v).get k j =
        w k i * v k j := by
      intro k hk
      have hk' := Finset.mem_range.1 hk
      rw [Mat.of_get_lt hi hk', Mat.of_get_lt hk' hj, hsget k hk', div_mul_cancel₀ _ (hspos k hk').ne']
    rw [Finset.sum_congr rfl e]
    have e2 : ∑ k ∈ range n, w k i * v k j = ∑ k ∈ range r, w k i * v k j := by
      symm
      refine Finset.sum_subset (fun k hk => Finset.mem_range.2 (by have := Finset.mem_range.1 hk; omega)) fun k hk hk' => ?_
      rw [w_zero k i (by simpa using hk') (Finset.mem_range.1 hk) hi, zero_mul]
    rw [← e2]
    have e3 : ∑ k ∈ range n, w k i * v k j = ∑ q ∈ range n, A.get i q * ∑ k ∈ range n, v k q * v k j := by
      have e0 : ∀ k, w k i * v k j = ∑ q ∈ range n, A.get i q * v k q * v k j := fun k => Finset.sum_mul _ _ _
      rw [Finset.sum_congr rfl fun k _ => e0 k, Finset.sum_comm]
      refine Finset.sum_congr rfl fun q _ => ?_
      rw [Finset.mul_sum]
      exact Finset.sum_congr rfl fun k _ => mul_assoc _ _ _
    rw [e3, Finset.sum_congr rfl (fun q hq => by rw [compl q j (Finset.mem_range.1 hq) hj])]
    simp only [mul_ite, mul_one, mul_zero]
    rw [Finset.sum_ite_eq', if_pos (Finset.mem_range.2 hj)]

theorem exists_svd (A : Mat ℝ) : ∃ (u : Mat ℝ) (s : List ℝ) (vt : Mat ℝ), IsSvd A u s vt := by
  obtain ⟨u, s, vt, h, -⟩ := exists_svd_pos A
  exact ⟨u, s, vt, h⟩

/-! ## The pseudo-inverse -/

theorem Mat.eq_of_toM {A B : Mat ℝ} {n m : ℕ} (ha : A.nr = n) (ha' : A.nc = m) (hb : B.nr = n) (hb' : B.nc = m)
    (h : A.toM n m = B.toM n m) : A = B := by
  refine Mat.ext' (ha.trans hb.symm) (ha'.trans hb'.symm) fun i j hi hj => ?_
  exact congrFun (congrFun h ⟨i, ha ▸ hi⟩) ⟨j, ha' ▸ hj⟩

/-- A Mathlib matrix as a `Mat`. -/
def Mat.ofM {n m : ℕ} (X : Matrix (Fin n) (Fin m) ℝ) : Mat ℝ :=
  Mat.of n m (fun i j => if h : i < n ∧ j < m then X ⟨i, h.1⟩ ⟨j, h.2⟩ else 0)

theorem Mat.toM_ofM {n m : ℕ} (X : Matrix (Fin n) (Fin m) ℝ) : (Mat.ofM X).toM n m = X := by
  ext i j
  simp only [Mat.toM, Matrix.of_apply, Mat.ofM]
  rw [Mat.of_get_lt i.2 j.2, dif_pos ⟨i.2, j.2⟩]

/-- The Penrose conditions for Mathlib matrices. -/
theorem isPinv_of_toM {M P : Mat ℝ} {n m : ℕ} (hr : M.nr = n) (hc : M.nc = m) (pr : P.nr = m) (pc : P.nc = n)
    (h1 : M.toM n m * P.toM m n * M.toM n m = M.toM n m) (h2 : P.toM m n * M.toM n m * P.toM m n = P.toM m n)
    (h3 : (M.toM n m * P.toM m n).transpose = M.toM n m * P.toM m n)
    (h4 : (P.toM m n * M.toM n m).transpose = P.toM m n * M.toM n m) : IsPinv M P where
  nr := pr.trans hc.symm
  nc := pc.trans hr.symm
  one := by
    refine Mat.eq_of_toM (n := n) (m := m) hr hc hr hc ?_
    rw [Mat.toM_mul (M.mul P) M n n m pc, Mat.toM_mul M P n m n hc, h1]
  two := by
    refine Mat.eq_of_toM (n := m) (m := n) pr pc pr pc ?_
    rw [Mat.toM_mul (P.mul M) P m m n hc, Mat.toM_mul P M m n m pc, h2]
  three := by
    refine Mat.eq_of_toM (n := n) (m := n) pc hr hr pc ?_
    rw [Mat.toM_transpose, Mat.toM_mul _ _ n m n hc, h3]
  four := by
    refine Mat.eq_of_toM (n := m) (m := m) hc pr pr hc ?_
    rw [Mat.toM_transpose, Mat.toM_mul _ _ m n m pc, h4]

/-- Every real matrix has a pseudo-inverse. -/
theorem exists_pinv (M : Mat ℝ) : ∃ P, IsPinv M P := by
  obtain ⟨u, s, vt, h, hpos⟩ := exists_svd_pos M
  set U := u.toM M.nr s.length with hU
  set V := vt.toM s.length M.nc with hV
  set D : Matrix (Fin s.length) (Fin s.length) ℝ := Matrix.diagonal (fun k => s.getD k 0) with hD
  set E : Matrix (Fin s.length) (Fin s.length) ℝ := Matrix.diagonal (fun k => (s.getD k 0)⁻¹) with hE
  have hs : ∀ k : Fin s.length, s.getD k 0 ≠ 0 := by
    intro k
    rw [List.getD_eq_getElem?_getD, List.getElem?_eq_getElem k.2]
    exact (hpos _ (List.getElem_mem k.2)).ne'
  have hDE : D * E = 1 := by
    rw [hD, hE, Matrix.diagonal_mul_diagonal, ← Matrix.diagonal_one]
    congr 1
    funext k
    exact mul_inv_cancel₀ (hs k)
  have hED : E * D = 1 := by
    rw [hD, hE, Matrix.diagonal_mul_diagonal, ← Matrix.diagonal_one]
    congr 1
    funext k
    exact inv_mul_cancel₀ (hs k)
  have hUU : U.transpose * U = 1 := by
    ext k l
    rw [Matrix.mul_apply, Matrix.one_apply]
    have := h.uOrth k l k.2 l.2
    rw [← Fin.sum_univ_eq_sum_range (fun i => u.get i k * u.get i l)] at this
    simp only [Fin.ext_iff]
    rw [← this]
    rfl
  have hVV : V * V.transpose = 1 := by
    ext k l
    rw [Matrix.mul_apply, Matrix.one_apply]
    have := h.vOrth k l k.2 l.2
    rw [← Fin.sum_univ_eq_sum_range (fun j => vt.get k j * vt.get l j)] at this
    simp only [Fin.ext_iff]
    rw [← this]
    rfl
  have hM : M.toM M.nr M.nc = U * D * V := by
    ext i j
    rw [Matrix.mul_apply]
    have := h.factor i j i.2 j.2
    rw [← Fin.sum_univ_eq_sum_range (fun l => u.get i l * s.getD l 0 * vt.get l j)] at this
    show M.get i j = _
    rw [this]
    refine Finset.sum_congr rfl fun k _ => ?_
    rw [hD, Matrix.mul_diagonal]
    rfl
  set Q := V.transpose * E * U.transpose with hQ
  have k1 : U * D * V * Q = U * U.transpose := by
    have : U * D * V * Q = U * (D * (V * V.transpose) * E) * U.transpose := by
      rw [hQ]; simp only [Matrix.mul_assoc]
    rw [this, hVV, Matrix.mul_one, hDE, Matrix.mul_one]
  have k2 : Q * (U * D * V) = V.transpose * V := by
    have : Q * (U * D * V) = V.transpose * (E * (U.transpose * U) * D) * V := by
      rw [hQ]; simp only [Matrix.mul_assoc]
    rw [this, hUU, Matrix.mul_one, hED, Matrix.mul_one]
  refine ⟨Mat.ofM Q, isPinv_of_toM (n := M.nr) (m := M.nc) rfl rfl rfl rfl ?_ ?_ ?_ ?_⟩
  · rw [Mat.toM_ofM, hM, k1]
    have : U * U.transpose * (U * D * V) = U * (U.transpose * U) * D * V := by simp only [Matrix.mul_assoc]
    rw [this, hUU, Matrix.mul_one]
  · rw [Mat.toM_ofM, hM, k2, hQ]
    have : V.transpose * V * (V.transpose * E * U.transpose) = V.transpose * (V * V.transpose) * E * U.transpose := by
      simp only [Matrix.mul_assoc]
    rw [this, hVV, Matrix.mul_one]
  · rw [Mat.toM_ofM, hM, k1, Matrix.transpose_mul, Matrix.transpose_transpose]
  · rw [Mat.toM_ofM, hM, k2, Matrix.transpose_mul, Matrix.transpose_transpose]

/-! ## Least squares -/

/-- The squared Frobenius norm of a Mathlib matrix. -/
def sqN {n m : ℕ} (X : Matrix (Fin n) (Fin m) ℝ) : ℝ := ∑ i, ∑ j, X i j ^ 2

theorem sqN_nonneg {n m : ℕ} (X : Matrix (Fin n) (Fin m) ℝ) : 0 ≤ sqN X :=
  Finset.sum_nonneg fun _ _ => Finset.sum_nonneg fun _ _ => sq_nonneg _

theorem sqN_eq_zero {n m : ℕ} {X : Matrix (Fin n) (Fin m) ℝ} (h : sqN X ≤ 0) : X = 0 := by
  have h0 : sqN X = 0 := le_antisymm h (sqN_nonneg X)
  ext i j
  have h1 := (Finset.sum_eq_zero_iff_of_nonneg (fun i _ => Finset.sum_nonneg fun j _ => sq_nonneg (X i j))).1 h0 i
    (Finset.mem_univ i)
  have h2 := (Finset.sum_eq_zero_iff_of_nonneg (fun j _ => sq_nonneg (X i j))).1 h1 j (Finset.mem_univ j)
  exact pow_eq_zero_iff (two_ne_zero) |>.1 h2

theorem sqN_add {n m : ℕ} {X Y : Matrix (Fin n) (Fin m) ℝ} (h : X.transpose * Y = 0) : sqN (X + Y) = sqN X + sqN Y := by
  have hc : ∑ i, ∑ j, X i j * Y i j = 0 := by
    rw [Finset.sum_comm]
    refine Finset.sum_eq_zero fun j _ => ?_
    have := congrFun (congrFun h j) j
    rw [Matrix.mul_apply] at this
    exact this
  have : sqN (X + Y) = sqN X + sqN Y + 2 * ∑ i, ∑ j, X i j * Y i j := by
    unfold sqN
    rw [Finset.mul_sum, ← Finset.sum_add_distrib, ← Finset.sum_add_distrib]
    refine Finset.sum_congr rfl fun i _ => ?_
    rw [Finset.mul_sum, ← Finset.sum_add_distrib, ← Finset.sum_add_distrib]
    refine Finset.sum_congr rfl fun j _ => ?_
    rw [Matrix.add_apply]
    ring
  rw [this, hc]
  ring

theorem sqResid_toM (A B X : Mat ℝ) :
    sqResid A B X false = sqN (A.toM A.nr A.nc * X.toM A.nc B.nc - B.toM A.nr B.nc) := by
  unfold sqResid sqN
  rw [← Fin.sum_univ_eq_sum_range (fun i => ∑ j ∈ range B.nc, (predict A X false i j - B.get i j) ^ 2)]
  refine Finset.sum_congr rfl fun i _ => ?_
  rw [← Fin.sum_univ_eq_sum_range (fun j => (predict A X false i j - B.get i j) ^ 2)]
  refine Finset.sum_congr rfl fun j _ => ?_
  congr 2
  rw [Matrix.mul_apply, predict, ← Fin.sum_univ_eq_sum_range (fun k => A.get i k * X.get k j)]
  simp [Mat.toM]

theorem frobSq_toM {X : Mat ℝ} {n m : ℕ} (hr : X.nr = n) (hc : X.nc = m) : frobSq X = sqN (X.toM n m) := by
  subst hr hc
  unfold frobSq sqN
  rw [← Fin.sum_univ_eq_sum_range (fun i => ∑ j ∈ range X.nc, X.get i j ^ 2)]
  refine Finset.sum_congr rfl fun i _ => ?_
  rw [← Fin.sum_univ_eq_sum_range (fun j => X.get i j ^ 2)]
  rfl

/-- The pseudo-inverse gives the shortest least-squares solution. -/
theorem minNorm_of_pinv {A B P : Mat ℝ} (hP : IsPinv A P) : IsMinNormLstsq A B (P.mul B) := by
  set a := A.toM A.nr A.nc with ha
  set b := B.toM A.nr B.nc with hb
  set p := P.toM A.nc A.nr with hp
  have hx : (P.mul B).toM A.nc B.nc = p * b := Mat.toM_mul _ _ _ _ _ hP.nc
  have q1 : a * p * a = a := by
    have := congrArg (fun X : Mat ℝ => X.toM A.nr A.nc) hP.one
    beta_reduce at this
    rwa [Mat.toM_mul (A.mul P) A _ A.nr _ hP.nc, Mat.toM_mul A P _ A.nc _ rfl] at this
  have q2 : p * a * p = p := by
    have := congrArg (fun X : Mat ℝ => X.toM A.nc A.nr) hP.two
    beta_reduce at this
    rwa [Mat.toM_mul (P.mul A) P _ A.nc _ rfl, Mat.toM_mul P A _ A.nr _ hP.nc] at this
  have q3 : (a * p).transpose = a * p := by
    have := congrArg (fun X : Mat ℝ => X.toM A.nr A.nr) hP.three
    simp only [Mat.toM_transpose] at this
    rwa [Mat.toM_mul _ _ _ A.nc _ rfl] at this
  have q4 : (p * a).transpose = p * a := by
    have := congrArg (fun X : Mat ℝ => X.toM A.nc A.nc) hP.four
    simp only [Mat.toM_transpose] at this
    rwa [Mat.toM_mul _ _ _ A.nr _ hP.nc] at this
  have hE : a.transpose * (a * (p * b) - b) = 0 := by
    have : a.transpose * (a * p) = a.transpose := by
      rw [← q3, ← Matrix.transpose_mul, q1]
    rw [Matrix.mul_sub, ← Matrix.mul_assoc a, ← Matrix.mul_assoc, this, sub_self]
  have split : ∀ Y : Mat ℝ, sqResid A B Y false =
      sqN (a * (Y.toM A.nc B.nc - p * b)) + sqResid A B (P.mul B) false := by
    intro Y
    rw [sqResid_toM, sqResid_toM, hx, ← sqN_add]
    · congr 1
      rw [Matrix.mul_sub]
      abel
    · rw [Matrix.transpose_mul, Matrix.mul_assoc, hE, Matrix.mul_zero]
  refine ⟨⟨hP.nr, rfl, fun Y => ?_⟩, fun Y hr hc hY => ?_⟩
  · rw [split Y]
    have := sqN_nonneg (a * (Y.toM A.nc B.nc - p * b))
    linarith
  · rw [split Y] at hY
    have hz : a * (Y.toM A.nc B.nc - p * b) = 0 := sqN_eq_zero (by linarith)
    rw [frobSq_toM (X := P.mul B) (n := A.nc) (m := B.nc) hP.nr rfl, frobSq_toM (X := Y) (n := A.nc) (m := B.nc) (hr.trans hP.nr) hc, hx]
    have e : Y.toM A.nc B.nc = p * b + (Y.toM A.nc B.nc - p * b) := by abel
    rw [e, sqN_add]
    · have := sqN_nonneg (Y.toM A.nc B.nc - p * b)
      linarith
    · have e2 : p * b = p * a * (p * b) := by rw [← Matrix.mul_assoc, q2]
      rw [e2, Matrix.transpose_mul, q4, Matrix.mul_assoc, Matrix.mul_assoc p a, ← e2, hz, Matrix.mul_zero, Matrix.mul_zero]

/-! ## An ideal back end -/

/-- The singular value decomposition chosen for a matrix. -/
def svdOf (A : Mat ℝ) : Mat ℝ × List ℝ × Mat ℝ :=
  ((exists_svd A).choose, (exists_svd A).choose_spec.choose, (exists_svd A).choose_spec.choose_spec.choose)

theorem svdOf_isSvd (A : Mat ℝ) : IsSvd A (svdOf A).1 (svdOf A).2.1 (svdOf A).2.2 :=
  (exists_svd A).choose_spec.choose_spec.choose_spec

/-- A back end that keeps every promise (it is not computable). -/
def idealEnv : Env where
  npSvd A := .ok (svdOf A)
  sparseSvd A k :=
    let n := min k (svdOf A).2.1.length
    .ok (Mat.of n A.nr (fun l i => (svdOf A).1.get i l), (svdOf A).2.1.take k, Mat.of n A.nc (fun l j => (svdOf A).2.2.get l j))
  npPinv M := .ok (exists_pinv M).choose
  npLstsq A B := .ok ((exists_pinv A).choose.mul B)

theorem idealEnv_ideal : idealEnv.Ideal where
  svd A := ⟨_, _, _, rfl, svdOf_isSvd A⟩
  sparse A k := by
    have hl : ((svdOf A).2.1.take k).length = min k (svdOf A).2.1.length := List.length_take
    refine ⟨_, _, _, rfl, rfl, hl.symm, hl.symm, rfl, _, _, _, svdOf_isSvd A, ?_, ?_, ?_⟩
    · show ((svdOf A).2.1.take k).length ≤ _
      rw [hl]
      exact min_le_right _ _
    · intro l h
      replace h : l < min k (svdOf A).2.1.length := hl ▸ h
      refine ⟨?_, fun i hi => ?_, fun j hj => ?_⟩
      · show ((svdOf A).2.1.take k).getD l 0 = _
        rw [List.getD_eq_getElem?_getD, List.getD_eq_getElem?_getD, List.getElem?_take_of_lt (by omega)]
      · show (Mat.of _ A.nr (fun l i => (svdOf A).1.get i l)).get l i = _
        rw [Mat.of_get_lt h hi]
      · show (Mat.of _ A.nc (fun l j => (svdOf A).2.2.get l j)).get l j = _
        rw [Mat.of_get_lt h hj]
    · intro h l h1 h2
      replace h : min k (svdOf A).2.1.length < k := hl ▸ h
      replace h1 : min k (svdOf A).2.1.length ≤ l := hl ▸ h1
      omega
  pinv M := ⟨_, rfl, (exists_pinv M).choose_spec⟩
  lstsq A _ := ⟨_, rfl, minNorm_of_pinv (exists_pinv A).choose_spec⟩

end
end Dissect
