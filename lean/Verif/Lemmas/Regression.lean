import Verif.Lemmas.Nmf
import Verif.Spec.Regression
import Verif.Model.Regression
import Mathlib.Data.Matrix.Mul
import Mathlib.Data.Real.Sqrt
import Mathlib.LinearAlgebra.Matrix.Trace

/-! # Normal equations: what makes ridge and least-squares regression optimal -/

namespace Dissect
open Finset

/-- The entries of a `Mat` as a Mathlib matrix of a given shape. -/
def Mat.toM (A : Mat ℝ) (n m : ℕ) : Matrix (Fin n) (Fin m) ℝ := Matrix.of fun i j => A.get i j

theorem Mat.toM_mul (A B : Mat ℝ) (n m p : ℕ) (h : A.nc = m) : (A.mul B).toM n p = A.toM n m * B.toM m p := by
  subst h
  ext i j
  simp only [toM, Matrix.of_apply, mul_get, Matrix.mul_apply]
  rw [← Fin.sum_univ_eq_sum_range (fun k => A.get i k * B.get k j)]

theorem Mat.toM_transpose (A : Mat ℝ) (n m : ℕ) : A.transpose.toM n m = (A.toM m n).transpose := rfl

/-- With `M = AᵀA + diag(lam)`, `lam ≥ 0`, and a pseudo-inverse `P` of `M`: `M P Aᵀ = Aᵀ`. -/
theorem pinv_gram {n d : ℕ} (A : Matrix (Fin n) (Fin d) ℝ) (lam : Fin d → ℝ) (hl : ∀ i, 0 ≤ lam i)
    (M P : Matrix (Fin d) (Fin d) ℝ) (hM : M = A.transpose * A + Matrix.diagonal lam) (h1 : M * P * M = M)
    (h3 : (M * P).transpose = M * P) : M * P * A.transpose = A.transpose := by
  have hMt : M.transpose = M := by
    rw [hM, Matrix.transpose_add, Matrix.transpose_mul, Matrix.transpose_transpose, Matrix.diagonal_transpose]
  set Q := 1 - M * P with hQ
  have hQM : Q * M = 0 := by rw [hQ, Matrix.sub_mul, h1, Matrix.one_mul, sub_self]
  have hQt : Q.transpose = Q := by rw [hQ, Matrix.transpose_sub, h3, Matrix.transpose_one]
  have hz : (A * Q).transpose * (A * Q) + Q.transpose * Matrix.diagonal lam * Q = 0 := by
    have : Q.transpose * M * Q = 0 := by rw [hQt, hQM, Matrix.zero_mul]
    rw [hM, Matrix.mul_add, Matrix.add_mul] at this
    rw [Matrix.transpose_mul, ← this]
    simp only [Matrix.mul_assoc]
  have hAQ : A * Q = 0 := by
    ext i j
    have e := congrFun (congrFun hz j) j
    simp only [Matrix.add_apply, Matrix.mul_apply (M := (A * Q).transpose), Matrix.transpose_apply, Matrix.zero_apply]
      at e
    rw [Matrix.mul_apply (M := Q.transpose * Matrix.diagonal lam)] at e
    simp only [Matrix.mul_diagonal, Matrix.transpose_apply] at e
    have n1 : 0 ≤ ∑ x, (A * Q) x j * (A * Q) x j := Finset.sum_nonneg fun x _ => mul_self_nonneg _
    have n2 : 0 ≤ ∑ x, Q x j * lam x * Q x j := Finset.sum_nonneg fun x _ => by
      have : Q x j * lam x * Q x j = lam x * (Q x j * Q x j) := by ring
      rw [this]; exact mul_nonneg (hl x) (mul_self_nonneg _)
    have n3 : ∑ x, (A * Q) x j * (A * Q) x j = 0 := by linarith
    have := (Finset.sum_eq_zero_iff_of_nonneg (fun x _ => mul_self_nonneg ((A * Q) x j))).1 n3 i (Finset.mem_univ i)
    exact mul_self_eq_zero.1 this
  have hQA : Q * A.transpose = 0 := by
    have := congrArg Matrix.transpose hAQ
    rwa [Matrix.transpose_mul, hQt, Matrix.transpose_zero] at this
  rw [hQ, Matrix.sub_mul, Matrix.one_mul, sub_eq_zero] at hQA
  exact hQA.symm

/-- A solution of the regularised normal equations is a minimiser. -/
theorem normal_min (n d c : ℕ) (W B X Y : ℕ → ℕ → ℝ) (lam : ℕ → ℝ) (hl : ∀ l, l < d → 0 ≤ lam l)
    (hN : ∀ l j, l < d → j < c → ∑ m ∈ range d, (∑ i ∈ range n, W i l * W i m) * X m j + lam l * X l j =
      ∑ i ∈ range n, W i l * B i j) :
    ∑ i ∈ range n, ∑ j ∈ range c, (∑ l ∈ range d, W i l * X l j - B i j) ^ 2 +
      ∑ l ∈ range d, ∑ j ∈ range c, lam l * X l j ^ 2 ≤
    ∑ i ∈ range n, ∑ j ∈ range c, (∑ l ∈ range d, W i l * Y l j - B i j) ^ 2 +
      ∑ l ∈ range d, ∑ j ∈ range c, lam l * Y l j ^ 2 := by
  have hsq : ∀ Z : ℕ → ℕ → ℝ, ∑ i ∈ range n, ∑ j ∈ range c, (∑ l ∈ range d, W i l * Z l j - B i j) ^ 2 =
      ∑ i ∈ range n, ∑ j ∈ range c, (B i j - ∑ l ∈ range d, W i l * Z l j) ^ 2 := fun Z =>
    Finset.sum_congr rfl fun i _ => Finset.sum_congr rfl fun j _ => by ring
  have he := sqErr_expand n d c B W X (fun l j => Y l j - X l j)
  have hY : ∀ i j, ∑ l ∈ range d, W i l * (X l j + (Y l j - X l j)) = ∑ l ∈ range d, W i l * Y l j := fun i j =>
    Finset.sum_congr rfl fun l _ => by ring
  simp only [hY] at he
  rw [hsq X, hsq Y, he]
  have hq := quad_nonneg n d c W (fun l j => Y l j - X l j)
  have hlin : ∑ l ∈ range d, ∑ j ∈ range c,
      ((∑ m ∈ range d, (∑ i ∈ range n, W i l * W i m) * X m j) - ∑ i ∈ range n, W i l * B i j) * (Y l j - X l j) =
      ∑ l ∈ range d, ∑ j ∈ range c, -(lam l * X l j) * (Y l j - X l j) := by
    refine Finset.sum_congr rfl fun l hl' => Finset.sum_congr rfl fun j hj => ?_
    rw [← hN l j (Finset.mem_range.1 hl') (Finset.mem_range.1 hj)]
    ring
  have hpen : ∑ l ∈ range d, ∑ j ∈ range c, lam l * X l j ^ 2 ≤
      2 * (∑ l ∈ range d, ∑ j ∈ range c, -(lam l * X l j) * (Y l j - X l j)) +
        ∑ l ∈ range d, ∑ j ∈ range c, lam l * Y l j ^ 2 := by
    rw [Finset.mul_sum, ← Finset.sum_add_distrib]
    refine Finset.sum_le_sum fun l hl' => ?_
    rw [Finset.mul_sum, ← Finset.sum_add_distrib]
    refine Finset.sum_le_sum fun j _ => ?_
    have := mul_nonneg (hl l (Finset.mem_range.1 hl')) (sq_nonneg (Y l j - X l j))
    nlinarith [this]
  rw [hlin]
  linarith

/-! ### The design matrix -/

theorem hstack_ones_eq (A : Mat ℝ) : A.hstack (Mat.const A.nr 1 1) = design A true := by
  refine Mat.ext' rfl rfl fun i j hi hj => ?_
  simp only [Mat.hstack_nr, Mat.hstack_nc] at hi hj
  have hj' : j < A.nc + 1 := hj
  rw [Mat.hstack_get (A := A) (B := Mat.const A.nr 1 1) rfl]
  unfold design
  rw [Mat.of_get_lt hi (by simpa [numCoef] using hj')]
  split
  · rfl
  · rename_i h
    simp [Mat.const, Mat.of_get, hi, show j - A.nc < 1 by omega]

theorem design_false (A : Mat ℝ) : design A false = A := by
  refine Mat.ext' rfl rfl fun i j hi hj => ?_
  unfold design at *
  simp only [numCoef, Mat.of_nr, Mat.of_nc] at hi hj
  have hj' : j < A.nc := by simpa using hj
  rw [Mat.of_get_lt hi (by simpa [numCoef] using hj'), if_pos hj']

@[simp] theorem design_nr (A : Mat ℝ) (b : Bool) : (design A b).nr = A.nr := rfl
@[simp] theorem design_nc (A : Mat ℝ) (b : Bool) : (design A b).nc = numCoef A b := rfl

theorem predict_eq (A X : Mat ℝ) (b : Bool) (i j : ℕ) (hi : i < A.nr) :
    predict A X b i j = ∑ k ∈ range (numCoef A b), (design A b).get i k * X.get k j := by
  unfold predict
  cases b with
  | false =>
    rw [design_false]
    simp [numCoef]
  | true =>
    simp only [numCoef, if_true]
    rw [Finset.sum_range_succ]
    congr 1
    · refine Finset.sum_congr rfl fun k hk => ?_
      have hk' := Finset.mem_range.1 hk
      unfold design
      rw [Mat.of_get_lt hi (by simp [numCoef]; omega), if_pos hk']
    · unfold design
      rw [Mat.of_get_lt hi (by simp [numCoef]), if_neg (by omega), one_mul]

/-! ### `ridge_regression` computes the solution of the normal equations -/

/-- The penalty of coefficient `l`. -/
noncomputable def penaltyOf (A : Mat ℝ) (lam : ℝ) (l : ℕ) : ℝ := if l < A.nc then lam else 0

theorem ridgeGram_get (A : Mat ℝ) (lam : ℝ) (b : Bool) {i j : ℕ} (hi : i < numCoef A b) (hj : j < numCoef A b) :
    (ridgeGram A lam b).get i j = ∑ k ∈ range A.nr, (design A b).get k i * (design A b).get k j +
      if i = j then penaltyOf A lam i else 0 := by
  unfold ridgeGram penaltyOf
  rw [Mat.of_get_lt hi hj]
  congr 1
  by_cases h1 : i = j <;> by_cases h2 : i < A.nc <;> simp [h1, h2]

theorem ridge_normal (A B P : Mat ℝ) (lam : ℝ) (hlam : 0 ≤ lam) (b : Bool) (hAB : A.nr = B.nr)
    (hP : IsPinv (ridgeGram A lam b) P) (l j : ℕ) (hl : l < numCoef A b) (hj : j < B.nc) :
    let X := (P.mul (design A b).transpose).mul B
    ∑ m ∈ range (numCoef A b), (∑ i ∈ range A.nr, (design A b).get i l * (design A b).get i m) * X.get m j +
      penaltyOf A lam l * X.get l j = ∑ i ∈ range A.nr, (design A b).get i l * B.get i j := by
  intro X
  set d := numCoef A b with hd
  set W := (design A b).toM A.nr d with hW
  set M := (ridgeGram A lam b).toM d d with hMdef
  have hMeq : M = W.transpose * W + Matrix.diagonal (fun i : Fin d => penaltyOf A lam i) := by
    ext i k
    rw [hMdef]
    show (ridgeGram A lam b).get i k = _
    rw [ridgeGram_get A lam b i.2 k.2, Matrix.add_apply, Matrix.mul_apply,
      ← Fin.sum_univ_eq_sum_range (fun x => (design A b).get x i * (design A b).get x k)]
    congr 1
    rw [Matrix.diagonal_apply]
    simp only [Fin.ext_iff]
  have hPnr : P.nr = d := hP.nr
  have hPnc : P.nc = d := hP.nc
  have h1 : M * P.toM d d * M = M := by
    have := congrArg (fun Z : Mat ℝ => Z.toM d d) hP.one
    rwa [Mat.toM_mul _ _ d d d (by rw [Mat.mul_nc, hPnc]), Mat.toM_mul _ _ d d d rfl] at this
  have h3 : (M * P.toM d d).transpose = M * P.toM d d := by
    have := congrArg (fun Z : Mat ℝ => Z.toM d d) hP.three
    rwa [Mat.toM_transpose, Mat.toM_mul _ _ d d d rfl] at this
  have key := pinv_gram W (fun i => penaltyOf A lam i)
    (fun i => by unfold penaltyOf; split <;> [exact hlam; exact le_rfl]) M (P.toM d d) hMeq h1 h3
  have hX : X.toM d B.nc = P.toM d d * W.transpose * B.toM A.nr B.nc := by
    show ((P.mul (design A b).transpose).mul B).toM d B.nc = _
    rw [Mat.toM_mul _ _ d A.nr B.nc rfl, Mat.toM_mul _ _ d d A.nr hPnc]
    rfl
  have hfin : M * X.toM d B.nc = W.transpose * B.toM A.nr B.nc := by
    rw [hX, ← Matrix.mul_assoc, ← Matrix.mul_assoc, key]
  have e := congrFun (congrFun hfin ⟨l, hl⟩) ⟨j, hj⟩
  rw [Matrix.mul_apply, Matrix.mul_apply] at e
  have el : ∑ k : Fin d, M ⟨l, hl⟩ k * X.toM d B.nc k ⟨j, hj⟩ =
      ∑ k ∈ range d, (ridgeGram A lam b).get l k * X.get k j := by
    rw [← Fin.sum_univ_eq_sum_range (fun k => (ridgeGram A lam b).get l k * X.get k j)]
    rfl
  have er : ∑ k : Fin A.nr, W.transpose ⟨l, hl⟩ k * B.toM A.nr B.nc k ⟨j, hj⟩ =
      ∑ i ∈ range A.nr, (design A b).get i l * B.get i j := by
    rw [← Fin.sum_univ_eq_sum_range (fun k => (design A b).get k l * B.get k j)]
    rfl
  rw [el, er] at e
  rw [← e]
  have : ∑ k ∈ range d, (ridgeGram A lam b).get l k * X.get k j =
      ∑ k ∈ range d, ((∑ i ∈ range A.nr, (design A b).get i l * (design A b).get i k) * X.get k j +
        if l = k then penaltyOf A lam l * X.get l j else 0) := by
    refine Finset.sum_congr rfl fun k hk => ?_
    rw [ridgeGram_get A lam b hl (Finset.mem_range.1 hk), add_mul]
    congr 1
    split
    · rename_i h; subst h; rfl
    · rw [zero_mul]
  rw [this, Finset.sum_add_distrib]
  congr 1
  rw [Finset.sum_ite_eq, if_pos (Finset.mem_range.2 hl)]

theorem objective_eq (A B X : Mat ℝ) (lam : ℝ) (b : Bool) :
    ridgeObjective A B X lam b =
      ∑ i ∈ range A.nr, ∑ j ∈ range B.nc, (∑ l ∈ range (numCoef A b), (design A b).get i l * X.get l j - B.get i j) ^ 2 +
      ∑ l ∈ range (numCoef A b), ∑ j ∈ range B.nc, penaltyOf A lam l * X.get l j ^ 2 := by
  unfold ridgeObjective sqResid sqPenalty
  congr 1
  · refine Finset.sum_congr rfl fun i hi => Finset.sum_congr rfl fun j _ => ?_
    rw [predict_eq A X b i j (Finset.mem_range.1 hi)]
  · have hin : ∀ l ∈ range A.nc, ∑ j ∈ range B.nc, penaltyOf A lam l * X.get l j ^ 2 =
        lam * ∑ j ∈ range B.nc, X.get l j ^ 2 := by
      intro l hl
      rw [Finset.mul_sum]
      refine Finset.sum_congr rfl fun j _ => ?_
      rw [penaltyOf, if_pos (Finset.mem_range.1 hl)]
    cases b with
    | false =>
      simp only [numCoef]
      rw [Finset.mul_sum]
      exact (Finset.sum_congr rfl hin).symm
    | true =>
      simp only [numCoef, if_true]
      rw [Finset.sum_range_succ, Finset.mul_sum, ← Finset.sum_congr rfl hin]
      simp [penaltyOf]

/-- The regression solution minimises the objective. -/
theorem ridge_min (A B P : Mat ℝ) (lam : ℝ) (hlam : 0 ≤ lam) (b : Bool) (hAB : A.nr = B.nr)
    (hP : IsPinv (ridgeGram A lam b) P) (Y : Mat ℝ) :
    ridgeObjective A B ((P.mul (design A b).transpose).mul B) lam b ≤ ridgeObjective A B Y lam b := by
  rw [objective_eq, objective_eq]
  refine normal_min A.nr (numCoef A b) B.nc (design A b).get B.get _ Y.get (penaltyOf A lam) (fun l _ => ?_)
    (fun l j hl hj => ridge_normal A B P lam hlam b hAB hP l j hl hj)
  unfold penaltyOf
  split
  · exact hlam
  · exact le_rfl

/-- The regularisation matrix built by `ridge_regression`. -/
theorem lambdaDiag_ok (ty : MTy) (n : ℕ) (hn : 0 < n) (lam : ℝ) (b : Bool) :
    ∃ L : Mat ℝ, lambdaDiag ty n lam b = .ok ⟨ty, L⟩ ∧ L.nr = (if b then n + 1 else n) ∧
      L.nc = (if b then n + 1 else n) ∧ ∀ i j, L.get i j = if i = j ∧ i < n then lam else 0 := by
  have e1 : TMat.identity (K := ℝ) ty n = .ok ⟨ty, Mat.identity n⟩ :=
    TMat.wrap_ok_pos (A := Mat.identity n) hn hn
  have e2 : (⟨ty, Mat.identity n⟩ : TMat ℝ).mulScalar lam = .ok ⟨ty, (Mat.identity n).smul lam⟩ :=
    TMat.mulScalar_ok lam hn hn
  have hg : ∀ i j, ((Mat.identity n : Mat ℝ).smul lam).get i j = if i = j ∧ i < n then lam else 0 := by
    intro i j
    simp only [Mat.smul_get, Mat.identity, Mat.of_get]
    by_cases h1 : i = j
    · subst h1
      by_cases h2 : i < n <;> simp [h2]
    · by_cases h2 : i < n ∧ j < n <;> simp [h1, h2]
  unfold lambdaDiag
  rw [e1, ok_bind, e2, ok_bind]
  cases b with
  | false => exact ⟨_, rfl, rfl, rfl, hg⟩
  | true =>
    set D := (Mat.identity n : Mat ℝ).smul lam with hD
    have hDr : D.nr = n := rfl
    have hDc : D.nc = n := rfl
    have p1 : (⟨ty, D⟩ : TMat ℝ).padd 0 0 = .ok ⟨ty, D.vstack (Mat.const 1 n 0)⟩ := by
      unfold TMat.padd
      rw [if_pos rfl]
      have : TMat.ofNumpy ty (Mat.const 1 n (0 : ℝ)) = .ok ⟨ty, Mat.const 1 n 0⟩ :=
        TMat.ofNumpy_ok (A := Mat.const 1 n 0) Nat.one_pos hn
      rw [show (⟨ty, D⟩ : TMat ℝ).nc = n from rfl, this]
      exact TMat.vstack_ok rfl rfl (by show 0 < D.nr + 1; omega) hn
    have p2 : (⟨ty, D.vstack (Mat.const 1 n 0)⟩ : TMat ℝ).padd 1 0 =
        .ok ⟨ty, (D.vstack (Mat.const 1 n 0)).hstack (Mat.const (n + 1) 1 0)⟩ := by
      unfold TMat.padd
      rw [if_neg (by norm_num), if_pos rfl]
      have : TMat.ofNumpy ty (Mat.const (n + 1) 1 (0 : ℝ)) = .ok ⟨ty, Mat.const (n + 1) 1 0⟩ :=
        TMat.ofNumpy_ok (A := Mat.const (n + 1) 1 0) (Nat.succ_pos n) Nat.one_pos
      rw [show (⟨ty, D.vstack (Mat.const 1 n 0)⟩ : TMat ℝ).nr = n + 1 from rfl, this]
      exact TMat.hstack_ok rfl rfl (Nat.succ_pos n) (Nat.lt_of_lt_of_le hn (Nat.le_add_right _ _))
    simp only [if_true]
    rw [p1, ok_bind, p2]
    refine ⟨_, rfl, rfl, rfl, fun i j => ?_⟩
    rw [Mat.hstack_get (A := D.vstack (Mat.const 1 n 0)) (B := Mat.const (n + 1) 1 0) rfl]
    have hz : ∀ x y p q, (Mat.const x y (0 : ℝ)).get p q = 0 := by
      intro x y p q
      simp [Mat.const, Mat.of_get]
    split
    · rw [Mat.vstack_get (A := D) (B := Mat.const 1 n 0) rfl]
      split
      · exact hg i j
      · rename_i h2
        rw [hz, if_neg]
        rintro ⟨_, h⟩
        exact h2 h
    · rename_i h2
      rw [hz, if_neg]
      rintro ⟨rfl, h⟩
      exact h2 h

theorem addOnes_ok (a : TMat ℝ) (ic : Bool) (h1 : 0 < a.nr) : addOnes a ic = .ok ⟨a.ty, design a.val ic⟩ := by
  unfold addOnes
  cases ic with
  | false => simp only [Bool.false_eq_true, if_false]; rw [design_false]
  | true =>
    simp only [if_true]
    have : TMat.ofNumpy a.ty (Mat.const a.nr 1 (1 : ℝ)) = .ok ⟨a.ty, Mat.const a.nr 1 1⟩ :=
      TMat.ofNumpy_ok (A := Mat.const a.nr 1 1) h1 Nat.one_pos
    rw [this, ok_bind, TMat.hstack_ok (s := a) (t := ⟨a.ty, Mat.const a.nr 1 1⟩) rfl rfl h1
      (by show 0 < a.nc + 1; omega), ← hstack_ones_eq]

/-- What `ridge_regression` returns, whatever matrix takes the place of the inverse. -/
theorem ridgeRegression_tmp (env : Env) (a b : TMat ℝ) (lam : ℝ) (ic : Bool) (hty : a.ty = b.ty) (hr : a.nr = b.nr)
    (h1 : 0 < a.nr) (h2 : 0 < a.nc) (h3 : 0 < b.nc) (P : Mat ℝ)
    (hP : pinvOrIdentity env ⟨a.ty, ridgeGram a.val lam ic⟩ (numCoef a.val ic) = .ok ⟨a.ty, P⟩) (hPr : P.nr = numCoef a.val ic)
    (hPc : P.nc = numCoef a.val ic) :
    ridgeRegression env a b lam ic =
      .ok (⟨a.ty, (P.mul (design a.val ic).transpose).mul b.val⟩,
        ((design a.val ic).transpose.had (P.mul (design a.val ic).transpose)).total,
        (⟨a.ty, ((design a.val ic).mul ((P.mul (design a.val ic).transpose).mul b.val)).sub b.val⟩ : TMat ℝ).norm) := by
  set W := design a.val ic with hW
  have hWr : W.nr = a.nr := rfl
  have hWc : W.nc = numCoef a.val ic := rfl
  have hd : 0 < numCoef a.val ic := by unfold numCoef; split <;> omega
  obtain ⟨L, hL, hLr, hLc, hLg⟩ := lambdaDiag_ok a.ty a.nc h2 lam ic
  have hdes : addOnes a ic = .ok ⟨a.ty, W⟩ := addOnes_ok a ic h1
  have hgram : (⟨a.ty, (W.transpose.mul W).add L⟩ : TMat ℝ) = ⟨a.ty, ridgeGram a.val lam ic⟩ := by
    congr 1
    have hLr' : L.nr = numCoef a.val ic := hLr
    have hLc' : L.nc = numCoef a.val ic := hLc
    refine Mat.ext' rfl rfl fun i j hi hj => ?_
    rw [Mat.add_get hLr'.symm hLc'.symm]
    have hi' : i < numCoef a.val ic := hi
    have hj' : j < numCoef a.val ic := hj
    unfold ridgeGram
    rw [Mat.of_get_lt hi' hj', hLg]
    rfl
  unfold ridgeRegression
  have hst : a.assertSameType b = .ok () := by unfold TMat.assertSameType; rw [if_pos hty]
  have hsr : a.assertSameRows b = .ok () := by unfold TMat.assertSameRows; rw [if_pos hr]
  rw [hst, ok_bind, hsr, ok_bind]
  rw [hdes, ok_bind]
  rw [hL, ok_bind]
  have e1 : (⟨a.ty, W⟩ : TMat ℝ).transpose = .ok ⟨a.ty, W.transpose⟩ := TMat.transpose_ok h1 hd
  have e2 : (⟨a.ty, W.transpose⟩ : TMat ℝ).mul ⟨a.ty, W⟩ = .ok ⟨a.ty, W.transpose.mul W⟩ :=
    TMat.mul_ok rfl rfl hd hd
  have e3 : (⟨a.ty, W.transpose.mul W⟩ : TMat ℝ).add ⟨a.ty, L⟩ = .ok ⟨a.ty, (W.transpose.mul W).add L⟩ :=
    TMat.add_ok rfl hLr.symm hLc.symm hd hd
  rw [e1, ok_bind, e2, ok_bind, e3, ok_bind, hgram]
  have e4 : pinvOrIdentity env ⟨a.ty, ridgeGram a.val lam ic⟩ L.nr = .ok ⟨a.ty, P⟩ := by
    rw [show L.nr = numCoef a.val ic from hLr]; exact hP
  have e5 : (⟨a.ty, P⟩ : TMat ℝ).mul ⟨a.ty, W.transpose⟩ = .ok ⟨a.ty, P.mul W.transpose⟩ :=
    TMat.mul_ok rfl hPc (by show 0 < P.nr; omega) h1
  have e6 : (⟨a.ty, P.mul W.transpose⟩ : TMat ℝ).mul b = .ok ⟨a.ty, (P.mul W.transpose).mul b.val⟩ :=
    TMat.mul_ok hty hr (by show 0 < P.nr; omega) h3
  have e7 : (⟨a.ty, W⟩ : TMat ℝ).mul ⟨a.ty, (P.mul W.transpose).mul b.val⟩ =
      .ok ⟨a.ty, W.mul ((P.mul W.transpose).mul b.val)⟩ := TMat.mul_ok rfl hPr.symm h1 h3
  have e8 : (⟨a.ty, W.mul ((P.mul W.transpose).mul b.val)⟩ : TMat ℝ).sub b =
      .ok ⟨a.ty, (W.mul ((P.mul W.transpose).mul b.val)).sub b.val⟩ := TMat.sub_ok hty hr rfl h1 h3
  have e9 : (⟨a.ty, W.transpose⟩ : TMat ℝ).multiply ⟨a.ty, P.mul W.transpose⟩ =
      .ok ⟨a.ty, W.transpose.had (P.mul W.transpose)⟩ := TMat.multiply_ok rfl hPr.symm rfl hd h1
  rw [e4, ok_bind, e5, ok_bind, e6, ok_bind, e7, ok_bind, e8, ok_bind, e9, ok_bind]
  rfl

/-- What `ridge_regression` returns when the pseudo-inverse succeeds. -/
theorem ridgeRegression_ok (env : Env) (a b : TMat ℝ) (lam : ℝ) (ic : Bool) (hty : a.ty = b.ty) (hr : a.nr = b.nr)
    (h1 : 0 < a.nr) (h2 : 0 < a.nc) (h3 : 0 < b.nc) (P : Mat ℝ)
    (hP : env.npPinv (ridgeGram a.val lam ic) = .ok P) (hPr : P.nr = numCoef a.val ic)
    (hPc : P.nc = numCoef a.val ic) :
    ridgeRegression env a b lam ic =
      .ok (⟨a.ty, (P.mul (design a.val ic).transpose).mul b.val⟩,
        ((design a.val ic).transpose.had (P.mul (design a.val ic).transpose)).total,
        (⟨a.ty, ((design a.val ic).mul ((P.mul (design a.val ic).transpose).mul b.val)).sub b.val⟩ : TMat ℝ).norm) := by
  have hd : 0 < numCoef a.val ic := by unfold numCoef; split <;> omega
  refine ridgeRegression_tmp env a b lam ic hty hr h1 h2 h3 P ?_ hPr hPc
  unfold pinvOrIdentity pinv
  simp only
  rw [hP, ok_bind, TMat.ofNumpy_ok (by omega) (by omega)]

theorem defaultRange_eq : Learner.defaultRange = lambdaGrid := by
  simp only [Learner.defaultRange, lambdaGrid, List.range, List.range.loop, List.map]
  norm_num

end Dissect
