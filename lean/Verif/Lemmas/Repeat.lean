import Verif.Lemmas.TrainOrder
import Verif.Lemmas.Ideal

/-! # Regression problems in which every sample is repeated the same number of times -/

namespace Dissect
open Finset
noncomputable section
variable {α : Type}

theorem sum_repeat (k : ℕ) (l : List α) (g : α → ℝ) :
    (((List.replicate k l).flatten).map g).sum = k * (l.map g).sum := by
  induction k with
  | zero => simp
  | succ k ih =>
    rw [List.replicate_succ, List.flatten_cons, List.map_append, List.sum_append, ih]
    push_cast
    ring

theorem filter_repeat (k : ℕ) (l : List α) (q : α → Bool) :
    ((List.replicate k l).flatten).filter q = (List.replicate k (l.filter q)).flatten := by
  rw [List.filter_flatten, List.map_replicate]

theorem repeat_ne_nil {k : ℕ} (hk : 0 < k) {l : List α} (hl : l ≠ []) : (List.replicate k l).flatten ≠ [] := by
  obtain ⟨k, rfl⟩ : ∃ k', k = k' + 1 := ⟨k - 1, by omega⟩
  rw [List.replicate_succ, List.flatten_cons]
  simp [hl]

theorem repeat_nil (k : ℕ) : (List.replicate k ([] : List α)).flatten = [] := by
  simp

/-- Sums over the rows of repeated samples. -/
theorem sum_rows_repeat {k : ℕ} {l : List α} {F F' : ℕ → ℝ} {g : α → ℝ}
    (h : ∀ i t, l[i]? = some t → F i = g t) (h' : ∀ i t, ((List.replicate k l).flatten)[i]? = some t → F' i = g t) :
    ∑ i ∈ range ((List.replicate k l).flatten).length, F' i = k * ∑ i ∈ range l.length, F i := by
  rw [sum_range_list l F g h, sum_range_list _ F' g h', sum_repeat]

/-! ### Pseudo-inverses -/

theorem Mat.mul_assoc' (A B C : Mat ℝ) : (A.mul B).mul C = A.mul (B.mul C) := by
  refine Mat.ext_get rfl rfl (fun i j => ?_)
  simp only [Mat.mul_get, Finset.sum_mul, Finset.mul_sum]
  rw [Finset.sum_comm]
  refine Finset.sum_congr rfl (fun a _ => Finset.sum_congr rfl (fun b _ => ?_))
  ring

theorem Mat.transpose_mul' {A B : Mat ℝ} (h : A.nc = B.nr) : (A.mul B).transpose = B.transpose.mul A.transpose := by
  refine Mat.ext_get rfl rfl (fun i j => ?_)
  rw [Mat.transpose_get, Mat.mul_get, Mat.mul_get]
  show _ = ∑ l ∈ range B.nr, _
  rw [← h]
  refine Finset.sum_congr rfl (fun a _ => ?_)
  rw [Mat.transpose_get, Mat.transpose_get]
  ring

/-- The pseudo-inverse is unique. -/
theorem IsPinv.unique {M P Q : Mat ℝ} (hP : IsPinv M P) (hQ : IsPinv M Q) : P = Q := by
  have e1 : M.mul P = M.mul Q := by
    calc M.mul P = ((M.mul Q).mul M).mul P := by rw [hQ.one]
      _ = (M.mul Q).mul (M.mul P) := by rw [Mat.mul_assoc']
      _ = (M.mul Q).transpose.mul (M.mul P).transpose := by rw [hQ.three, hP.three]
      _ = ((M.mul P).mul (M.mul Q)).transpose := by
        rw [Mat.transpose_mul' (A := M.mul P) (B := M.mul Q)]
        exact hP.nc
      _ = (((M.mul P).mul M).mul Q).transpose := by rw [Mat.mul_assoc' (M.mul P)]
      _ = M.mul Q := by rw [hP.one, hQ.three]
  have e2 : P.mul M = Q.mul M := by
    calc P.mul M = P.mul ((M.mul Q).mul M) := by rw [hQ.one]
      _ = (P.mul M).mul (Q.mul M) := by simp only [Mat.mul_assoc']
      _ = (P.mul M).transpose.mul (Q.mul M).transpose := by rw [hQ.four, hP.four]
      _ = ((Q.mul M).mul (P.mul M)).transpose := by
        rw [Mat.transpose_mul' (A := Q.mul M) (B := P.mul M)]
        exact hP.nr.symm
      _ = (Q.mul ((M.mul P).mul M)).transpose := by rw [Mat.mul_assoc' Q, Mat.mul_assoc' M]
      _ = Q.mul M := by rw [hP.one, hQ.four]
  calc P = (P.mul M).mul P := hP.two.symm
    _ = Q.mul (M.mul P) := by rw [e2, Mat.mul_assoc']
    _ = (Q.mul M).mul Q := by rw [e1, Mat.mul_assoc']
    _ = Q := hQ.two

theorem Mat.smul_mul (c : ℝ) (A B : Mat ℝ) : (A.smul c).mul B = (A.mul B).smul c := by
  refine Mat.ext_get rfl rfl (fun i j => ?_)
  simp only [Mat.mul_get, Mat.smul_get, Mat.smul_nc, Finset.mul_sum]
  exact Finset.sum_congr rfl (fun a _ => by ring)

theorem Mat.mul_smul (c : ℝ) (A B : Mat ℝ) : A.mul (B.smul c) = (A.mul B).smul c := by
  refine Mat.ext_get rfl rfl (fun i j => ?_)
  simp only [Mat.mul_get, Mat.smul_get, Finset.mul_sum]
  exact Finset.sum_congr rfl (fun a _ => by ring)

theorem Mat.smul_smul (c d : ℝ) (A : Mat ℝ) : (A.smul c).smul d = A.smul (d * c) := by
  refine Mat.ext_get rfl rfl (fun i j => ?_)
  simp only [Mat.smul_get]
  ring

theorem Mat.one_smul' (A : Mat ℝ) : A.smul 1 = A := Mat.ext_get rfl rfl (fun i j => by simp)

/-- The pseudo-inverse of a multiple. -/
theorem IsPinv.smul {M P : Mat ℝ} (h : IsPinv M P) {c : ℝ} (hc : c ≠ 0) : IsPinv (M.smul c) (P.smul c⁻¹) := by
  have e : (M.smul c).mul (P.smul c⁻¹) = M.mul P := by
    rw [Mat.smul_mul, Mat.mul_smul, Mat.smul_smul, mul_inv_cancel₀ hc, Mat.one_smul']
  have e' : (P.smul c⁻¹).mul (M.smul c) = P.mul M := by
    rw [Mat.smul_mul, Mat.mul_smul, Mat.smul_smul, inv_mul_cancel₀ hc, Mat.one_smul']
  refine ⟨h.nr, h.nc, ?_, ?_, ?_, ?_⟩
  · rw [e, Mat.mul_smul, h.one]
  · rw [e', Mat.mul_smul, h.two]
  · rw [e, h.three]
  · rw [e', h.four]

/-! ### The two branches of least squares -/

theorem ridgeGram_repeat (k : ℕ) (l : List α) (n : ℕ) (f : α → ℕ → ℝ) (lam : ℝ) (ic : Bool) :
    ridgeGram (rowsMat n f (List.replicate k l).flatten) (k * lam) ic = (ridgeGram (rowsMat n f l) lam ic).smul (k : ℝ) := by
  refine Mat.ext' rfl rfl (fun i j hi hj => ?_)
  rw [Mat.smul_get]
  unfold ridgeGram
  have hi2 : ∀ v : List α, i < numCoef (rowsMat n f v) ic := fun _ => hi
  have hj2 : ∀ v : List α, j < numCoef (rowsMat n f v) ic := fun _ => hj
  rw [Mat.of_get_lt (hi2 _) (hj2 _), Mat.of_get_lt (hi2 _) (hj2 _), mul_add]
  have hi' : i < if ic then n + 1 else n := hi
  have hj' : j < if ic then n + 1 else n := hj
  simp only [design_rowsMat]
  congr 1
  · exact sum_rows_repeat (g := fun t => designVec n f t i * designVec n f t j)
      (fun k t hk => by rw [rowsMat_get hk hi', rowsMat_get hk hj'])
      (fun k t hk => by rw [rowsMat_get hk hi', rowsMat_get hk hj'])
  · show (if i = j ∧ i < n then _ else _) = (k : ℝ) * (if i = j ∧ i < n then _ else _)
    split
    · rfl
    · rw [mul_zero]

/-- The coefficients of ridge regression with an exact pseudo-inverse: `k` copies of the samples with `k` times the
parameter. -/
theorem ridge_repeat {env : Env} (henv : env.Ideal) {k : ℕ} (hk : 0 < k) {l : List α} (hl : l ≠ []) (ty : MTy) {n m : ℕ}
    (hn : 0 < n) (hm : 0 < m) (f g : α → ℕ → ℝ) (lam : ℝ) (ic : Bool) :
    ∃ r r', ridgeRegression env ⟨ty, rowsMat n f l⟩ ⟨ty, rowsMat m g l⟩ lam ic = .ok r ∧
      ridgeRegression env ⟨ty, rowsMat n f (List.replicate k l).flatten⟩ ⟨ty, rowsMat m g (List.replicate k l).flatten⟩
        (k * lam) ic = .ok r' ∧ r'.1 = r.1 := by
  have hl0 : 0 < l.length := List.length_pos_iff.2 hl
  have hl1 : 0 < (List.replicate k l).flatten.length := List.length_pos_iff.2 (repeat_ne_nil hk hl)
  have hk0 : (k : ℝ) ≠ 0 := by exact_mod_cast hk.ne'
  set N := if ic then n + 1 else n with hN
  have hN0 : 0 < N := by rw [hN]; split <;> omega
  set F := designVec n f with hF
  have run : ∀ (v : List α) (x : ℝ), 0 < v.length → ∀ P, env.npPinv (ridgeGram (rowsMat n f v) x ic) = .ok P →
      IsPinv (ridgeGram (rowsMat n f v) x ic) P →
      ∃ tr err, ridgeRegression env ⟨ty, rowsMat n f v⟩ ⟨ty, rowsMat m g v⟩ x ic =
        .ok (⟨ty, (P.mul (rowsMat N F v).transpose).mul (rowsMat m g v)⟩, tr, err) := by
    intro v x hv P hP hpin
    have hPr : P.nr = N := hpin.nr
    have hPc : P.nc = N := hpin.nc
    have key : ridgeRegression env ⟨ty, rowsMat n f v⟩ ⟨ty, rowsMat m g v⟩ x ic =
        ridgeTail ty (rowsMat N F v) (rowsMat m g v) ⟨ty, P⟩ := by
     rw [ridgeRegression_eq env ⟨ty, rowsMat n f v⟩ ⟨ty, rowsMat m g v⟩ x ic rfl rfl hv hn]
     simp only [pinvOrIdentity, pinv, hP, ok_bind]
     rw [TMat.ofNumpy_ok (A := P) (by omega) (by omega)]
     simp only [ok_bind, design_rowsMat, hN, hF]
    rw [key]
    exact ⟨_, _, ridgeTail_good (tmp := ⟨ty, P⟩) rfl hv hN0 hm rfl hPr hPc⟩
  obtain ⟨P, hP, hpin⟩ := henv.pinv (ridgeGram (rowsMat n f l) lam ic)
  obtain ⟨Q, hQ, hqin⟩ := henv.pinv (ridgeGram (rowsMat n f (List.replicate k l).flatten) (k * lam) ic)
  obtain ⟨tr, err, h⟩ := run l lam hl0 P hP hpin
  obtain ⟨tr', err', h'⟩ := run _ _ hl1 Q hQ hqin
  refine ⟨_, _, h, h', ?_⟩
  have hQP : Q = P.smul (k : ℝ)⁻¹ := by
    rw [ridgeGram_repeat] at hqin
    exact hqin.unique (hpin.smul hk0)
  have hPc : P.nc = N := hpin.nc
  show (⟨ty, _⟩ : TMat ℝ) = ⟨ty, _⟩
  congr 1
  rw [hQP]
  refine Mat.ext' rfl rfl (fun i j hi hj => ?_)
  have hj' : j < m := hj
  rw [Mat.mul_get, Mat.mul_get]
  have := sum_rows_repeat (k := k) (l := l)
    (F := fun x => (P.mul (rowsMat N F l).transpose).get i x * (rowsMat m g l).get x j)
    (F' := fun x => (P.mul (rowsMat N F (List.replicate k l).flatten).transpose).get i x *
      (rowsMat m g (List.replicate k l).flatten).get x j)
    (g := fun t => (∑ c ∈ range P.nc, P.get i c * F t c) * g t j)
    (fun x t hx => by
      rw [rowsMat_get hx hj', Mat.mul_get]
      congr 1
      refine Finset.sum_congr rfl (fun c hc => ?_)
      rw [Mat.transpose_get, rowsMat_get hx (by have := Finset.mem_range.1 hc; omega)])
    (fun x t hx => by
      rw [rowsMat_get hx hj', Mat.mul_get]
      congr 1
      refine Finset.sum_congr rfl (fun c hc => ?_)
      rw [Mat.transpose_get, rowsMat_get hx (by have := Finset.mem_range.1 hc; omega)])
  rw [show (((P.smul (k : ℝ)⁻¹).mul (rowsMat N F (List.replicate k l).flatten).transpose)).nc =
    (List.replicate k l).flatten.length from rfl, show ((P.mul (rowsMat N F l).transpose)).nc = l.length from rfl]
  simp only [Mat.smul_mul, Mat.smul_get]
  simp only [_root_.mul_assoc, ← Finset.mul_sum] at this ⊢
  rw [this, ← _root_.mul_assoc, inv_mul_cancel₀ hk0, one_mul]

/-- **Least squares with repeated samples.** -/
theorem lstsq_repeat {env : Env} (henv : env.Ideal) {k : ℕ} (hk : 0 < k) {l : List α} (hl : l ≠ []) (ty : MTy) {n m : ℕ}
    (hn : 0 < n) (hm : 0 < m) (f g : α → ℕ → ℝ) (ic : Bool) :
    (Learner.lstsq ic).train env ⟨ty, rowsMat n f (List.replicate k l).flatten⟩
        ⟨ty, rowsMat m g (List.replicate k l).flatten⟩ =
      (Learner.lstsq ic).train env ⟨ty, rowsMat n f l⟩ ⟨ty, rowsMat m g l⟩ := by
  have hl0 : 0 < l.length := List.length_pos_iff.2 hl
  have hl1 : 0 < (List.replicate k l).flatten.length := List.length_pos_iff.2 (repeat_ne_nil hk hl)
  have hk0 : (0 : ℝ) < k := by exact_mod_cast hk
  set l' := (List.replicate k l).flatten with hl'
  simp only [Learner.train, lstsqRegression]
  have s1 : ∀ v : List α, (⟨ty, rowsMat n f v⟩ : TMat ℝ).assertSameType ⟨ty, rowsMat m g v⟩ = .ok () := by
    intro v; unfold TMat.assertSameType; rw [if_pos rfl]
  have s2 : ∀ v : List α, (⟨ty, rowsMat n f v⟩ : TMat ℝ).assertSameRows ⟨ty, rowsMat m g v⟩ = .ok () := by
    intro v; exact if_pos rfl
  rw [s1, s1, s2, s2]
  simp only [ok_bind]
  rw [addOnes_ok ⟨ty, rowsMat n f l⟩ ic hl0, addOnes_ok ⟨ty, rowsMat n f l'⟩ ic hl1]
  simp only [ok_bind]
  cases ty with
  | sparse =>
    simp only
    rw [design_rowsMat, design_rowsMat]
    obtain ⟨r, r', h1, h2, h3⟩ := ridge_repeat henv hk hl .sparse (n := if ic then n + 1 else n) (by split <;> omega) hm
      (designVec n f) g 0 false
    rw [mul_zero] at h2
    rw [h1, h2]
    obtain ⟨x, y⟩ := r
    obtain ⟨x', y'⟩ := r'
    simp only at h3
    subst h3
    rfl
  | dense =>
    simp only
    obtain ⟨X, hX, a⟩ := henv.lstsq (design (rowsMat n f l) ic) (rowsMat m g l)
    obtain ⟨Y, hY, b⟩ := henv.lstsq (design (rowsMat n f l') ic) (rowsMat m g l')
    rw [hX, hY, ok_bind, ok_bind]
    congr 1
    have hre : ∀ Z, sqResid (rowsMat n f l') (rowsMat m g l') Z ic = k * sqResid (rowsMat n f l) (rowsMat m g l) Z ic := by
      intro Z
      rw [sqResid_rows, sqResid_rows, hl', sum_repeat]
    have amin := a.solves.min
    have bmin := b.solves.min
    have ashort := a.shortest
    have bshort := b.shortest
    simp only [sqResid_design] at amin bmin ashort bshort
    simp only [hre, mul_le_mul_iff_right₀ hk0] at bmin bshort
    have x1 : X.nr = if ic then n + 1 else n := a.solves.nr
    have x2 : X.nc = m := a.solves.nc
    have y1 : Y.nr = if ic then n + 1 else n := b.solves.nr
    have y2 : Y.nc = m := b.solves.nc
    have hXY := le_antisymm (amin Y) (bmin X)
    refine (shortest_unique (R := fun Z => sqResid (rowsMat n f l) (rowsMat m g l) Z ic) (y1.trans x1.symm)
      (y2.trans x2.symm) ?_ hXY ashort bshort).symm
    have := midMat_resid (f := f) (g := g) l (Y := Y) x1 x2
    linarith

end
end Dissect
