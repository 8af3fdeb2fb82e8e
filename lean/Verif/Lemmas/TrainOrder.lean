import Verif.Props.Regression
import Verif.Lemmas.Train
import Verif.Spec.TrainOrder

/-! # Regression problems given by a list of samples: the order of the samples does not matter -/

namespace Dissect
open Finset
noncomputable section
variable {α : Type}

theorem rowsMat_get {n : ℕ} {f : α → ℕ → ℝ} {l : List α} {k : ℕ} {t : α} (h : l[k]? = some t) {j : ℕ} (hj : j < n) :
    (rowsMat n f l).get k j = f t j := by
  have hk : k < l.length := (List.getElem?_eq_some_iff.1 h).1
  unfold rowsMat
  rw [Mat.of_get_lt hk hj, h]

/-- Sums over the rows do not depend on the order. -/
theorem sum_rows_perm {l l' : List α} (hp : l.Perm l') {F F' : ℕ → ℝ} {g : α → ℝ}
    (h : ∀ k t, l[k]? = some t → F k = g t) (h' : ∀ k t, l'[k]? = some t → F' k = g t) :
    ∑ k ∈ range l.length, F k = ∑ k ∈ range l'.length, F' k := by
  rw [sum_range_list l F g h, sum_range_list l' F' g h']
  exact (hp.map g).sum_eq

/-- Sample row with the 1 of the intercept. -/
def designVec (n : ℕ) (f : α → ℕ → ℝ) (t : α) : ℕ → ℝ := fun j => if j < n then f t j else 1

theorem design_rowsMat (n : ℕ) (f : α → ℕ → ℝ) (l : List α) (ic : Bool) :
    design (rowsMat n f l) ic = rowsMat (if ic then n + 1 else n) (designVec n f) l := by
  refine Mat.ext' rfl (by unfold design numCoef; rfl) (fun k j hk hj => ?_)
  have hk' : k < l.length := hk
  have hj' : j < (if ic then n + 1 else n) := hj
  rw [rowsMat_get (List.getElem?_eq_getElem hk') hj']
  unfold design designVec
  have hj2 : j < numCoef (rowsMat n f l) ic := hj
  rw [Mat.of_get_lt (by exact hk') hj2]
  show (if j < n then _ else _) = _
  split
  · rename_i h
    rw [rowsMat_get (List.getElem?_eq_getElem hk') h]
  · rfl

theorem ridgeGram_perm {l l' : List α} (hp : l.Perm l') (n : ℕ) (f : α → ℕ → ℝ) (lam : ℝ) (ic : Bool) :
    ridgeGram (rowsMat n f l) lam ic = ridgeGram (rowsMat n f l') lam ic := by
  refine Mat.ext' rfl rfl (fun i j hi hj => ?_)
  have hi' : i < (if ic then n + 1 else n) := hi
  have hj' : j < (if ic then n + 1 else n) := hj
  unfold ridgeGram
  have hi2 : i < numCoef (rowsMat n f l) ic := hi
  have hj2 : j < numCoef (rowsMat n f l) ic := hj
  have hi3 : i < numCoef (rowsMat n f l') ic := hi
  have hj3 : j < numCoef (rowsMat n f l') ic := hj
  rw [Mat.of_get_lt hi2 hj2, Mat.of_get_lt hi3 hj3]
  congr 1
  rw [design_rowsMat, design_rowsMat]
  exact sum_rows_perm hp (g := fun t => designVec n f t i * designVec n f t j)
    (fun k t hk => by rw [rowsMat_get hk hi', rowsMat_get hk hj'])
    (fun k t hk => by rw [rowsMat_get hk hi', rowsMat_get hk hj'])

/-- The part of `ridge_regression` after the pseudo-inverse. -/
def ridgeTail (ty : MTy) (W B : Mat ℝ) (tmp : TMat ℝ) : Py (TMat ℝ × ℝ × ℝ) := do
  let tmpRes ← tmp.mul ⟨ty, W.transpose⟩
  let result ← tmpRes.mul ⟨ty, B⟩
  let pred ← (⟨ty, W⟩ : TMat ℝ).mul result
  let diff ← pred.sub ⟨ty, B⟩
  let tr ← (⟨ty, W.transpose⟩ : TMat ℝ).multiply tmpRes
  return (result, tr.sumAll, diff.norm)

theorem ridgeTail_good {ty : MTy} {W B : Mat ℝ} {tmp : TMat ℝ} (hr : W.nr = B.nr) (h1 : 0 < W.nr) (h2 : 0 < W.nc)
    (h3 : 0 < B.nc) (t1 : tmp.ty = ty) (t2 : tmp.nr = W.nc) (t3 : tmp.nc = W.nc) :
    ridgeTail ty W B tmp = .ok (⟨ty, (tmp.val.mul W.transpose).mul B⟩,
      (W.transpose.had (tmp.val.mul W.transpose)).total,
      (⟨ty, (W.mul ((tmp.val.mul W.transpose).mul B)).sub B⟩ : TMat ℝ).norm) := by
  obtain ⟨tty, P⟩ := tmp
  simp only at t1
  subst t1
  have t2' : P.nr = W.nc := t2
  have t3' : P.nc = W.nc := t3
  have e5 : (⟨tty, P⟩ : TMat ℝ).mul ⟨tty, W.transpose⟩ = .ok ⟨tty, P.mul W.transpose⟩ :=
    TMat.mul_ok rfl t3 (by show 0 < P.nr; omega) h1
  have e6 : (⟨tty, P.mul W.transpose⟩ : TMat ℝ).mul ⟨tty, B⟩ = .ok ⟨tty, (P.mul W.transpose).mul B⟩ :=
    TMat.mul_ok rfl hr (by show 0 < P.nr; omega) h3
  have e7 : (⟨tty, W⟩ : TMat ℝ).mul ⟨tty, (P.mul W.transpose).mul B⟩ =
      .ok ⟨tty, W.mul ((P.mul W.transpose).mul B)⟩ := TMat.mul_ok rfl t2.symm h1 h3
  have e8 : (⟨tty, W.mul ((P.mul W.transpose).mul B)⟩ : TMat ℝ).sub ⟨tty, B⟩ =
      .ok ⟨tty, (W.mul ((P.mul W.transpose).mul B)).sub B⟩ := TMat.sub_ok rfl hr rfl h1 h3
  have e9 : (⟨tty, W.transpose⟩ : TMat ℝ).multiply ⟨tty, P.mul W.transpose⟩ =
      .ok ⟨tty, W.transpose.had (P.mul W.transpose)⟩ := TMat.multiply_ok rfl t2.symm rfl h2 h1
  unfold ridgeTail
  rw [e5, ok_bind, e6, ok_bind, e7, ok_bind, e8, ok_bind, e9, ok_bind]
  rfl

theorem ridgeTail_bad {ty : MTy} {W B : Mat ℝ} {tmp : TMat ℝ} (hr : W.nr = B.nr) (h1 : 0 < W.nr) (h2 : 0 < W.nc)
    (h3 : 0 < B.nc) (h : ¬ (tmp.nr = W.nc ∧ tmp.nc = W.nc)) :
    ridgeTail ty W B tmp = .error (if tmp.ty = ty then .valueError else .typeError) := by
  obtain ⟨tty, P⟩ := tmp
  unfold ridgeTail
  by_cases t1 : tty = ty
  · subst t1
    rw [if_pos rfl]
    by_cases t3 : P.nc = W.nc
    · have t2 : P.nr ≠ W.nc := fun h' => h ⟨h', t3⟩
      by_cases h0 : 0 < P.nr
      · have e5 : (⟨tty, P⟩ : TMat ℝ).mul ⟨tty, W.transpose⟩ = .ok ⟨tty, P.mul W.transpose⟩ :=
          TMat.mul_ok rfl t3 h0 h1
        have e6 : (⟨tty, P.mul W.transpose⟩ : TMat ℝ).mul ⟨tty, B⟩ = .ok ⟨tty, (P.mul W.transpose).mul B⟩ :=
          TMat.mul_ok rfl hr h0 h3
        have e7 : (⟨tty, W⟩ : TMat ℝ).mul ⟨tty, (P.mul W.transpose).mul B⟩ = .error .valueError := by
          unfold TMat.mul
          rw [if_pos rfl, if_neg]
          exact fun h' => t2 h'.symm
        rw [e5, ok_bind, e6, ok_bind, e7]
        rfl
      · have h0' : P.nr = 0 := by omega
        cases tty with
        | dense =>
          have e5 : (⟨.dense, P⟩ : TMat ℝ).mul ⟨.dense, W.transpose⟩ = .error .valueError := by
            unfold TMat.mul
            rw [if_pos rfl, if_pos (by exact t3)]
            unfold TMat.wrap
            simp only
            rw [if_pos (Or.inl (by exact h0'))]
          rw [e5]
          rfl
        | sparse =>
          have e5 : (⟨.sparse, P⟩ : TMat ℝ).mul ⟨.sparse, W.transpose⟩ = .ok ⟨.sparse, P.mul W.transpose⟩ := by
            unfold TMat.mul
            rw [if_pos rfl, if_pos (by exact t3)]
            rfl
          have e6 : (⟨.sparse, P.mul W.transpose⟩ : TMat ℝ).mul ⟨.sparse, B⟩ =
              .ok ⟨.sparse, (P.mul W.transpose).mul B⟩ := by
            unfold TMat.mul
            rw [if_pos rfl, if_pos (by exact hr)]
            rfl
          have e7 : (⟨.sparse, W⟩ : TMat ℝ).mul ⟨.sparse, (P.mul W.transpose).mul B⟩ = .error .valueError := by
            unfold TMat.mul
            rw [if_pos rfl, if_neg]
            exact fun h' => t2 h'.symm
          rw [e5, ok_bind, e6, ok_bind, e7]
          rfl
    · have e5 : (⟨tty, P⟩ : TMat ℝ).mul ⟨tty, W.transpose⟩ = .error .valueError := by
        unfold TMat.mul
        rw [if_pos rfl, if_neg (by exact t3)]
      rw [e5]
      rfl
  · rw [if_neg (by exact t1)]
    have e5 : (⟨tty, P⟩ : TMat ℝ).mul ⟨ty, W.transpose⟩ = .error .typeError := by
      unfold TMat.mul
      rw [if_neg (by exact t1)]
    rw [e5]
    rfl

/-- `ridge_regression` up to the pseudo-inverse and after it. -/
theorem ridgeRegression_eq (env : Env) (a b : TMat ℝ) (lam : ℝ) (ic : Bool) (hty : a.ty = b.ty) (hr : a.nr = b.nr)
    (h1 : 0 < a.nr) (h2 : 0 < a.nc) :
    ridgeRegression env a b lam ic =
      (pinvOrIdentity env ⟨a.ty, ridgeGram a.val lam ic⟩ (numCoef a.val ic) >>=
        ridgeTail a.ty (design a.val ic) b.val) := by
  set W := design a.val ic with hW
  have hWr : W.nr = a.nr := rfl
  have hWc : W.nc = numCoef a.val ic := rfl
  have hd : 0 < numCoef a.val ic := by unfold numCoef; split <;> omega
  obtain ⟨L, hL, hLr, hLc, hLg⟩ := lambdaDiag_ok a.ty a.nc h2 lam ic
  have hdes : addOnes a ic = .ok ⟨a.ty, W⟩ := addOnes_ok a ic h1
  have hgram : (⟨a.ty, (W.transpose.mul W).add L⟩ : TMat ℝ) = ⟨a.ty, ridgeGram a.val lam ic⟩ := by
    congr 1
    have hLr' : L.nr = numCoef a.val ic := hLr
    have hLc' : L.nc = numCoef a.val ic := hLc
    refine Mat.ext' rfl rfl fun i j hi hj => ?_
    rw [Mat.add_get hLr'.symm hLc'.symm]
    have hi' : i < numCoef a.val ic := hi
    have hj' : j < numCoef a.val ic := hj
    unfold ridgeGram
    rw [Mat.of_get_lt hi' hj', hLg]
    rfl
  unfold ridgeRegression
  have hst : a.assertSameType b = .ok () := by unfold TMat.assertSameType; rw [if_pos hty]
  have hsr : a.assertSameRows b = .ok () := by unfold TMat.assertSameRows; rw [if_pos hr]
  rw [hst, ok_bind, hsr, ok_bind]
  rw [hdes, ok_bind]
  rw [hL, ok_bind]
  have e1 : (⟨a.ty, W⟩ : TMat ℝ).transpose = .ok ⟨a.ty, W.transpose⟩ := TMat.transpose_ok h1 hd
  have e2 : (⟨a.ty, W.transpose⟩ : TMat ℝ).mul ⟨a.ty, W⟩ = .ok ⟨a.ty, W.transpose.mul W⟩ :=
    TMat.mul_ok rfl rfl hd hd
  have e3 : (⟨a.ty, W.transpose.mul W⟩ : TMat ℝ).add ⟨a.ty, L⟩ = .ok ⟨a.ty, (W.transpose.mul W).add L⟩ :=
    TMat.add_ok rfl hLr.symm hLc.symm hd hd
  have hLn : (⟨a.ty, L⟩ : TMat ℝ).nr = numCoef a.val ic := hLr
  rw [e1, ok_bind, e2, ok_bind, e3, ok_bind, hgram, hLn]
  have hb : (⟨a.ty, b.val⟩ : TMat ℝ) = b := by rw [hty]
  unfold ridgeTail
  rw [hb]

/-- **Ridge regression does not depend on the order of the samples**, whatever the back end does. -/
theorem ridgeRegression_perm (env : Env) {l l' : List α} (hp : l.Perm l') (hl : l ≠ []) (ty : MTy) {n m : ℕ}
    (hn : 0 < n) (hm : 0 < m) (f g : α → ℕ → ℝ) (lam : ℝ) (ic : Bool) :
    ridgeRegression env ⟨ty, rowsMat n f l⟩ ⟨ty, rowsMat m g l⟩ lam ic =
      ridgeRegression env ⟨ty, rowsMat n f l'⟩ ⟨ty, rowsMat m g l'⟩ lam ic := by
  have hl0 : 0 < l.length := List.length_pos_iff.2 hl
  have hl1 : 0 < l'.length := by rw [← hp.length_eq]; exact hl0
  rw [ridgeRegression_eq env ⟨ty, rowsMat n f l⟩ ⟨ty, rowsMat m g l⟩ lam ic rfl rfl hl0 hn,
    ridgeRegression_eq env ⟨ty, rowsMat n f l'⟩ ⟨ty, rowsMat m g l'⟩ lam ic rfl rfl hl1 hn]
  simp only
  rw [ridgeGram_perm hp, design_rowsMat, design_rowsMat]
  have hnum : numCoef (rowsMat n f l) ic = numCoef (rowsMat n f l') ic := rfl
  rw [hnum]
  rcases pinvOrIdentity env ⟨ty, ridgeGram (rowsMat n f l') lam ic⟩ (numCoef (rowsMat n f l') ic) with e | tmp
  · rfl
  simp only [ok_bind]
  set d := if ic then n + 1 else n with hd
  have hd0 : 0 < d := by rw [hd]; split <;> omega
  set q := designVec n f with hq
  by_cases hgood : tmp.nr = d ∧ tmp.nc = d
  · by_cases ht : tmp.ty = ty
    · rw [ridgeTail_good (W := rowsMat d q l) (B := rowsMat m g l) rfl hl0 hd0 hm ht hgood.1 hgood.2,
        ridgeTail_good (W := rowsMat d q l') (B := rowsMat m g l') rfl hl1 hd0 hm ht hgood.1 hgood.2]
      have hPd : tmp.val.nc = d := hgood.2
      have key : (tmp.val.mul (rowsMat d q l).transpose).mul (rowsMat m g l) =
          (tmp.val.mul (rowsMat d q l').transpose).mul (rowsMat m g l') := by
        refine Mat.ext' rfl rfl (fun i j hi hj => ?_)
        have hj' : j < m := hj
        rw [Mat.mul_get, Mat.mul_get]
        refine sum_rows_perm hp (g := fun t => (∑ c ∈ range tmp.val.nc, tmp.val.get i c * q t c) * g t j)
          (fun k t hk => ?_) (fun k t hk => ?_)
        · rw [rowsMat_get hk hj', Mat.mul_get]
          congr 1
          refine Finset.sum_congr rfl (fun c hc => ?_)
          rw [Mat.transpose_get, rowsMat_get hk (by have := Finset.mem_range.1 hc; omega)]
        · rw [rowsMat_get hk hj', Mat.mul_get]
          congr 1
          refine Finset.sum_congr rfl (fun c hc => ?_)
          rw [Mat.transpose_get, rowsMat_get hk (by have := Finset.mem_range.1 hc; omega)]
      rw [← key]
      set X := (tmp.val.mul (rowsMat d q l).transpose).mul (rowsMat m g l) with hX
      have e2 : ((rowsMat d q l).transpose.had (tmp.val.mul (rowsMat d q l).transpose)).total =
          ((rowsMat d q l').transpose.had (tmp.val.mul (rowsMat d q l').transpose)).total := by
        unfold Mat.total
        refine Finset.sum_congr rfl (fun i hi => ?_)
        have hi' : i < d := Finset.mem_range.1 hi
        refine sum_rows_perm hp (g := fun t => q t i * ∑ c ∈ range tmp.val.nc, tmp.val.get i c * q t c)
          (fun k t hk => ?_) (fun k t hk => ?_)
        · rw [Mat.had_get, Mat.transpose_get, rowsMat_get hk hi', Mat.mul_get]
          congr 1
          refine Finset.sum_congr rfl (fun c hc => ?_)
          rw [Mat.transpose_get, rowsMat_get hk (by have := Finset.mem_range.1 hc; omega)]
        · rw [Mat.had_get, Mat.transpose_get, rowsMat_get hk hi', Mat.mul_get]
          congr 1
          refine Finset.sum_congr rfl (fun c hc => ?_)
          rw [Mat.transpose_get, rowsMat_get hk (by have := Finset.mem_range.1 hc; omega)]
      have e3 : (⟨ty, ((rowsMat d q l).mul X).sub (rowsMat m g l)⟩ : TMat ℝ).norm =
          (⟨ty, ((rowsMat d q l').mul X).sub (rowsMat m g l')⟩ : TMat ℝ).norm := by
        unfold TMat.norm
        congr 1
        have hXc : X.nc = m := rfl
        have hsub : ∀ (v : List α) (i j : ℕ), (((rowsMat d q v).mul X).sub (rowsMat m g v)).get i j =
            ((rowsMat d q v).mul X).get i j - (rowsMat m g v).get i j := fun v i j =>
          Mat.sub_get (A := (rowsMat d q v).mul X) (B := rowsMat m g v) rfl rfl i j
        refine sum_rows_perm hp (g := fun t => ∑ j ∈ range m, (∑ c ∈ range d, q t c * X.get c j - g t j) ^ 2)
          (fun k t hk => ?_) (fun k t hk => ?_)
        · refine Finset.sum_congr rfl (fun j hj => ?_)
          have hj' : j < m := Finset.mem_range.1 hj
          simp only
          rw [hsub, Mat.mul_get, rowsMat_get hk hj']
          congr 2
          refine Finset.sum_congr rfl (fun c hc => ?_)
          rw [rowsMat_get hk (Finset.mem_range.1 hc)]
        · refine Finset.sum_congr rfl (fun j hj => ?_)
          have hj' : j < m := Finset.mem_range.1 hj
          simp only
          rw [hsub, Mat.mul_get, rowsMat_get hk hj']
          congr 2
          refine Finset.sum_congr rfl (fun c hc => ?_)
          rw [rowsMat_get hk (Finset.mem_range.1 hc)]
      rw [e2, e3]
    · unfold ridgeTail
      have e5 : ∀ v : List α, tmp.mul ⟨ty, (rowsMat d q v).transpose⟩ = .error .typeError := by
        intro v
        unfold TMat.mul
        rw [if_neg (by exact ht)]
      rw [e5, e5]
      rfl
  · rw [ridgeTail_bad (W := rowsMat d q l) (B := rowsMat m g l) rfl hl0 hd0 hm hgood,
      ridgeTail_bad (W := rowsMat d q l') (B := rowsMat m g l') rfl hl1 hd0 hm hgood]

theorem sqResid_rows (n m : ℕ) (f g : α → ℕ → ℝ) (l : List α) (X : Mat ℝ) (ic : Bool) :
    sqResid (rowsMat n f l) (rowsMat m g l) X ic =
      (l.map (fun t => ∑ j ∈ range m, (predictVec n X.get ic (f t) j - g t j) ^ 2)).sum := by
  unfold sqResid
  refine sum_range_list l _ _ (fun k t hk => ?_)
  refine Finset.sum_congr rfl (fun j hj => ?_)
  rw [rowsMat_get hk (Finset.mem_range.1 hj)]
  congr 2
  unfold predict predictVec
  congr 1
  refine Finset.sum_congr rfl (fun c hc => ?_)
  rw [rowsMat_get hk (Finset.mem_range.1 hc)]

/-- The matrix half way between two. -/
def midMat (X Y : Mat ℝ) : Mat ℝ := Mat.of X.nr X.nc (fun i j => (X.get i j + Y.get i j) / 2)

theorem midMat_resid {n m : ℕ} {f g : α → ℕ → ℝ} (l : List α) {X Y : Mat ℝ} {ic : Bool}
    (x1 : X.nr = if ic then n + 1 else n) (x2 : X.nc = m) :
    4 * sqResid (rowsMat n f l) (rowsMat m g l) (midMat X Y) ic ≤
      2 * sqResid (rowsMat n f l) (rowsMat m g l) X ic + 2 * sqResid (rowsMat n f l) (rowsMat m g l) Y ic := by
  have hpred : ∀ t, ∀ j < m, predictVec n (midMat X Y).get ic (f t) j =
      (predictVec n X.get ic (f t) j + predictVec n Y.get ic (f t) j) / 2 := by
    intro t j hj
    unfold predictVec
    have e1 : ∑ k ∈ range n, f t k * (midMat X Y).get k j =
        (∑ k ∈ range n, f t k * X.get k j + ∑ k ∈ range n, f t k * Y.get k j) / 2 := by
      rw [← Finset.sum_add_distrib, Finset.sum_div]
      refine Finset.sum_congr rfl (fun k hk => ?_)
      have hk' := Finset.mem_range.1 hk
      have : k < X.nr := by rw [x1]; split <;> omega
      rw [midMat, Mat.of_get_lt this (by omega)]
      ring
    rw [e1]
    cases ic with
    | false => simp
    | true =>
      simp only [if_true] at x1 ⊢
      rw [midMat, Mat.of_get_lt (by omega) (by omega)]
      ring
  rw [sqResid_rows, sqResid_rows, sqResid_rows]
  induction l with
  | nil => simp
  | cons t l ih =>
    simp only [List.map_cons, List.sum_cons]
    have : 4 * ∑ j ∈ range m, (predictVec n (midMat X Y).get ic (f t) j - g t j) ^ 2 ≤
        2 * ∑ j ∈ range m, (predictVec n X.get ic (f t) j - g t j) ^ 2 +
        2 * ∑ j ∈ range m, (predictVec n Y.get ic (f t) j - g t j) ^ 2 := by
      rw [Finset.mul_sum, Finset.mul_sum, Finset.mul_sum, ← Finset.sum_add_distrib]
      refine Finset.sum_le_sum (fun j hj => ?_)
      rw [hpred t j (Finset.mem_range.1 hj)]
      nlinarith [sq_nonneg (predictVec n X.get ic (f t) j - predictVec n Y.get ic (f t) j)]
    linarith

/-- The shortest solution of a least-squares problem is unique. -/
theorem shortest_unique {R : Mat ℝ → ℝ} {X Y : Mat ℝ} (hr : Y.nr = X.nr) (hc : Y.nc = X.nc)
    (hmid : R (midMat X Y) ≤ R X) (hXY : R X = R Y)
    (hX : ∀ Z : Mat ℝ, Z.nr = X.nr → Z.nc = X.nc → R Z ≤ R X → frobSq X ≤ frobSq Z)
    (hY : ∀ Z : Mat ℝ, Z.nr = Y.nr → Z.nc = Y.nc → R Z ≤ R Y → frobSq Y ≤ frobSq Z) : X = Y := by
  have h1 := hX Y hr hc hXY.symm.le
  have h2 := hY X hr.symm hc.symm hXY.le
  have h3 := hX (midMat X Y) rfl rfl hmid
  have e : ∑ i ∈ range X.nr, ∑ j ∈ range X.nc, (X.get i j - Y.get i j) ^ 2 =
      2 * frobSq X + 2 * frobSq Y - 4 * frobSq (midMat X Y) := by
    unfold frobSq
    rw [hr, hc, Finset.mul_sum, Finset.mul_sum, Finset.mul_sum, ← Finset.sum_add_distrib]
    show _ = _ - ∑ i ∈ range X.nr, 4 * ∑ j ∈ range X.nc, (midMat X Y).get i j ^ 2
    rw [← Finset.sum_sub_distrib]
    refine Finset.sum_congr rfl (fun i hi => ?_)
    rw [Finset.mul_sum, Finset.mul_sum, Finset.mul_sum, ← Finset.sum_add_distrib, ← Finset.sum_sub_distrib]
    refine Finset.sum_congr rfl (fun j hj => ?_)
    rw [midMat, Mat.of_get_lt (Finset.mem_range.1 hi) (Finset.mem_range.1 hj)]
    ring
  have h0 : ∑ i ∈ range X.nr, ∑ j ∈ range X.nc, (X.get i j - Y.get i j) ^ 2 = 0 :=
    le_antisymm (by rw [e]; linarith) (Finset.sum_nonneg (fun i _ => Finset.sum_nonneg (fun j _ => sq_nonneg _)))
  refine Mat.ext' hr.symm hc.symm (fun i j hi hj => ?_)
  have h4 := (Finset.sum_eq_zero_iff_of_nonneg (fun i _ => Finset.sum_nonneg (fun j _ => sq_nonneg _))).1 h0 i
    (Finset.mem_range.2 hi)
  have h5 := (Finset.sum_eq_zero_iff_of_nonneg (fun j _ => sq_nonneg _)).1 h4 j (Finset.mem_range.2 hj)
  have := pow_eq_zero_iff (two_ne_zero) |>.1 h5
  linarith

theorem gcvLoop_perm (env : Env) {l l' : List α} (hp : l.Perm l') (hl : l ≠ []) (ty : MTy) {n m : ℕ}
    (hn : 0 < n) (hm : 0 < m) (f g : α → ℕ → ℝ) (ic : Bool) (ps : List ℝ) (st : Learner.GcvState) :
    Learner.gcvLoop env ⟨ty, rowsMat n f l⟩ ⟨ty, rowsMat m g l⟩ ic st ps =
      Learner.gcvLoop env ⟨ty, rowsMat n f l'⟩ ⟨ty, rowsMat m g l'⟩ ic st ps := by
  induction ps generalizing st with
  | nil => rfl
  | cons p ps ih =>
    have hstep : Learner.gcvStep env ⟨ty, rowsMat n f l⟩ ⟨ty, rowsMat m g l⟩ ic st p =
        Learner.gcvStep env ⟨ty, rowsMat n f l'⟩ ⟨ty, rowsMat m g l'⟩ ic st p := by
      unfold Learner.gcvStep
      rw [ridgeRegression_perm env hp hl ty hn hm]
      have : (⟨ty, rowsMat n f l⟩ : TMat ℝ).nr = (⟨ty, rowsMat n f l'⟩ : TMat ℝ).nr := hp.length_eq
      rw [this]
    rw [Learner.gcvLoop, Learner.gcvLoop, hstep]
    congr 1
    funext st'
    exact ih st'

/-- **A learner does not depend on the order of the samples**: ridge regression (also with cross validation) never,
least squares when the matrices are sparse or `lstsq` returns the shortest solution. -/
theorem learner_perm (env : Env) {l l' : List α} (hp : l.Perm l') (hl : l ≠ []) (ty : MTy) {n m : ℕ}
    (hn : 0 < n) (hm : 0 < m) (f g : α → ℕ → ℝ) (L : Learner)
    (hls : ∀ ic, L = .lstsq ic → ty = .dense →
      ∀ v, v.Perm l → ∃ X, env.npLstsq (design (rowsMat n f v) ic) (rowsMat m g v) = .ok X ∧
        IsMinNormLstsq (design (rowsMat n f v) ic) (rowsMat m g v) X) :
    L.train env ⟨ty, rowsMat n f l⟩ ⟨ty, rowsMat m g l⟩ = L.train env ⟨ty, rowsMat n f l'⟩ ⟨ty, rowsMat m g l'⟩ := by
  have hl' : l' ≠ [] := fun h => hl (by rw [h] at hp; exact hp.eq_nil)
  have hl0 : 0 < l.length := List.length_pos_iff.2 hl
  have hl1 : 0 < l'.length := List.length_pos_iff.2 hl'
  cases L with
  | ridge ic cv rg prm =>
    cases cv with
    | false =>
      cases prm with
      | none => rfl
      | some q =>
        simp only [Learner.train]
        rw [ridgeRegression_perm env hp hl ty hn hm]
    | true =>
      simp only [Learner.train]
      rw [gcvLoop_perm env hp hl ty hn hm]
      congr 1
      funext st
      rw [ridgeRegression_perm env hp hl ty hn hm]
  | lstsq ic =>
    simp only [Learner.train, lstsqRegression]
    have s1 : ∀ v : List α, (⟨ty, rowsMat n f v⟩ : TMat ℝ).assertSameType ⟨ty, rowsMat m g v⟩ = .ok () := by
      intro v; unfold TMat.assertSameType; rw [if_pos rfl]
    have s2 : ∀ v : List α, (⟨ty, rowsMat n f v⟩ : TMat ℝ).assertSameRows ⟨ty, rowsMat m g v⟩ = .ok () := by
      intro v; exact if_pos rfl
    rw [s1, s1, s2, s2]
    simp only [ok_bind]
    rw [addOnes_ok ⟨ty, rowsMat n f l⟩ ic hl0, addOnes_ok ⟨ty, rowsMat n f l'⟩ ic hl1]
    simp only [ok_bind]
    cases ty with
    | sparse =>
      simp only
      rw [design_rowsMat, design_rowsMat]
      rw [ridgeRegression_perm env hp hl .sparse (by split <;> omega) hm]
    | dense =>
      simp only
      have hsol := hls ic rfl rfl
      obtain ⟨X, hX, a⟩ := hsol l (List.Perm.refl _)
      obtain ⟨Y, hY, b⟩ := hsol l' hp.symm
      rw [hX, hY, ok_bind, ok_bind]
      congr 1
      have hre : ∀ Z, sqResid (rowsMat n f l) (rowsMat m g l) Z ic = sqResid (rowsMat n f l') (rowsMat m g l') Z ic := by
        intro Z
        rw [sqResid_rows, sqResid_rows]
        exact (hp.map _).sum_eq
      have amin := a.solves.min
      have bmin := b.solves.min
      have ashort := a.shortest
      have bshort := b.shortest
      simp only [sqResid_design] at amin bmin ashort bshort
      simp only [← hre] at bmin bshort
      have x1 : X.nr = if ic then n + 1 else n := a.solves.nr
      have x2 : X.nc = m := a.solves.nc
      have y1 : Y.nr = if ic then n + 1 else n := b.solves.nr
      have y2 : Y.nc = m := b.solves.nc
      have hXY := le_antisymm (amin Y) (bmin X)
      refine shortest_unique (R := fun Z => sqResid (rowsMat n f l) (rowsMat m g l) Z ic) (y1.trans x1.symm)
        (y2.trans x2.symm) ?_ hXY ashort bshort
      have := midMat_resid (f := f) (g := g) l (Y := Y) x1 x2
      linarith

end
end Dissect
