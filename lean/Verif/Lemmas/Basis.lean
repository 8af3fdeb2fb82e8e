import Verif.Spec.Basis
import Verif.Props.TargetScale

/-! # Change of basis in the regression problems -/

namespace Dissect
open Finset
noncomputable section
variable {κ : Type} [DecidableEq κ]

theorem IsOrtho.dot {n : ℕ} {Q : Mat ℝ} (h : IsOrtho n Q) (x y : ℕ → ℝ) : dot n (turn n Q x) (turn n Q y) = dot n x y := by
  unfold Dissect.dot turn
  have e : ∀ k, (∑ i ∈ range n, x i * Q.get i k) * (∑ i ∈ range n, y i * Q.get i k) =
      ∑ i ∈ range n, ∑ j ∈ range n, x i * y j * (Q.get i k * Q.get j k) := by
    intro k
    rw [Finset.sum_mul_sum]
    exact Finset.sum_congr rfl fun i _ => Finset.sum_congr rfl fun j _ => by ring
  simp only [e]
  rw [Finset.sum_comm]
  refine Finset.sum_congr rfl fun i hi => ?_
  rw [Finset.sum_comm]
  have hi' := Finset.mem_range.1 hi
  have : ∀ j ∈ range n, ∑ k ∈ range n, x i * y j * (Q.get i k * Q.get j k) = if i = j then x i * y j else 0 := by
    intro j hj
    rw [← Finset.mul_sum]
    have := h.rows i hi' j (Finset.mem_range.1 hj)
    unfold Dissect.dot at this
    rw [this]
    split <;> simp
  rw [Finset.sum_congr rfl this, Finset.sum_ite_eq, if_pos hi]

theorem IsOrtho.sq {n : ℕ} {Q : Mat ℝ} (h : IsOrtho n Q) (x : ℕ → ℝ) :
    ∑ j ∈ range n, turn n Q x j ^ 2 = ∑ j ∈ range n, x j ^ 2 := by
  have := h.dot x x
  unfold Dissect.dot at this
  simpa only [pow_two] using this

theorem IsOrtho.mul_transpose {n : ℕ} {Q : Mat ℝ} (h : IsOrtho n Q) : Q.mul Q.transpose = Mat.identity n := by
  refine Mat.ext' h.nr h.nr fun i j hi hj => ?_
  have hi' : i < n := by rw [← h.nr]; exact hi
  have hj' : j < n := by rw [← h.nr]; exact hj
  have := h.rows i hi' j hj'
  rw [Mat.mul_get, h.nc]
  unfold Dissect.dot at this
  unfold Mat.identity
  rw [Mat.of_get_lt hi' hj']
  exact this

theorem Mat.mul_identity {A : Mat ℝ} {n : ℕ} (h : A.nc = n) : A.mul (Mat.identity n) = A := by
  refine Mat.ext' rfl h.symm fun i j hi hj => ?_
  have hj' : j < n := hj
  rw [Mat.mul_get, h]
  unfold Mat.identity
  rw [Finset.sum_congr rfl (fun k hk => by rw [Mat.of_get_lt (Finset.mem_range.1 hk) hj'])]
  simp [hj']

theorem Mat.identity_mul {A : Mat ℝ} {n : ℕ} (h : A.nr = n) : (Mat.identity n).mul A = A := by
  refine Mat.ext' h.symm rfl fun i j hi hj => ?_
  have hi' : i < n := hi
  show ∑ k ∈ range n, (Mat.identity n).get i k * A.get k j = _
  unfold Mat.identity
  rw [Finset.sum_congr rfl (fun k hk => by rw [Mat.of_get_lt hi' (Finset.mem_range.1 hk)])]
  simp [hi']

theorem Mat.transpose_transpose' (A : Mat ℝ) : A.transpose.transpose = A := Mat.ext' rfl rfl fun _ _ _ _ => rfl

theorem toM_identity (n : ℕ) : (Mat.identity n : Mat ℝ).toM n n = 1 := by
  ext i j
  show (Mat.identity n : Mat ℝ).get i j = _
  unfold Mat.identity
  rw [Mat.of_get_lt i.2 j.2, Matrix.one_apply]
  simp [Fin.ext_iff]

theorem IsOrtho.transpose_mul {n : ℕ} {Q : Mat ℝ} (h : IsOrtho n Q) : Q.transpose.mul Q = Mat.identity n := by
  refine Mat.eq_of_toM (n := n) (m := n) h.nc h.nc rfl rfl ?_
  rw [Mat.toM_mul Q.transpose Q n n n h.nr, toM_identity]
  have := congrArg (fun M => Mat.toM M n n) h.mul_transpose
  rw [Mat.toM_mul Q Q.transpose n n n h.nc, toM_identity] at this
  exact mul_eq_one_comm.1 this

theorem IsOrtho.cols {n : ℕ} {Q : Mat ℝ} (h : IsOrtho n Q) {i j : ℕ} (hi : i < n) (hj : j < n) :
    ∑ k ∈ range n, Q.get k i * Q.get k j = if i = j then 1 else 0 := by
  have := congrArg (fun M => Mat.get M i j) h.transpose_mul
  simp only [Mat.mul_get] at this
  rw [show Q.transpose.nc = n from h.nr] at this
  unfold Mat.identity at this
  rw [Mat.of_get_lt hi hj] at this
  exact this

theorem IsOrtho.transpose {n : ℕ} {Q : Mat ℝ} (h : IsOrtho n Q) : IsOrtho n Q.transpose :=
  ⟨h.nc, h.nr, fun _ hi _ hj => h.cols hi hj⟩

/-- `Q`, extended by a 1 for the intercept. -/
def extQ (n : ℕ) (Q : Mat ℝ) (ic : Bool) : Mat ℝ :=
  Mat.of (if ic then n + 1 else n) (if ic then n + 1 else n) (fun i j =>
    if i < n ∧ j < n then Q.get i j else if i = j then 1 else 0)

theorem extQ_get {n : ℕ} {Q : Mat ℝ} {ic : Bool} {i j : ℕ} (hi : i < if ic then n + 1 else n) (hj : j < if ic then n + 1 else n) :
    (extQ n Q ic).get i j = if i < n ∧ j < n then Q.get i j else if i = j then 1 else 0 := Mat.of_get_lt hi hj

/-- A sum over the coefficients. -/
theorem sum_coef (n : ℕ) (ic : Bool) (f : ℕ → ℝ) :
    ∑ k ∈ range (if ic then n + 1 else n), f k = ∑ k ∈ range n, f k + if ic then f n else 0 := by
  cases ic
  · simp
  · simp [Finset.sum_range_succ]

theorem sum_extQ {n : ℕ} {Q : Mat ℝ} {ic : Bool} {j : ℕ} (hj : j < if ic then n + 1 else n) (x : ℕ → ℝ) :
    ∑ k ∈ range (if ic then n + 1 else n), x k * (extQ n Q ic).get k j = if j < n then ∑ k ∈ range n, x k * Q.get k j else x j := by
  have h0 : ∀ k ∈ range (if ic then n + 1 else n), x k * (extQ n Q ic).get k j =
      (fun k => x k * if k < n ∧ j < n then Q.get k j else if k = j then 1 else 0) k := fun k hk => by
    rw [extQ_get (Finset.mem_range.1 hk) hj]
  rw [Finset.sum_congr rfl h0, sum_coef]
  by_cases hjn : j < n
  · rw [if_pos hjn, Finset.sum_congr rfl (fun k hk => by rw [if_pos ⟨Finset.mem_range.1 hk, hjn⟩])]
    have : ¬ n = j := by omega
    simp [this]
  · rw [if_neg hjn]
    cases ic
    · simp at hj; omega
    · simp only [if_true] at hj
      obtain rfl : j = n := by omega
      rw [Finset.sum_eq_zero (fun k hk => ?_)]
      · simp
      · have := Finset.mem_range.1 hk
        have h2 : ¬ k = j := by omega
        simp [h2]

theorem IsOrtho.ext {n : ℕ} {Q : Mat ℝ} (h : IsOrtho n Q) (ic : Bool) : IsOrtho (if ic then n + 1 else n) (extQ n Q ic) := by
  refine ⟨rfl, rfl, fun i hi j hj => ?_⟩
  unfold Dissect.dot
  have h0 : ∀ k ∈ range (if ic then n + 1 else n), (extQ n Q ic).get i k * (extQ n Q ic).get j k =
      (fun k => (if i < n ∧ k < n then Q.get i k else if i = k then 1 else 0) *
        (if j < n ∧ k < n then Q.get j k else if j = k then 1 else 0)) k := fun k hk => by
    rw [extQ_get hi (Finset.mem_range.1 hk), extQ_get hj (Finset.mem_range.1 hk)]
  rw [Finset.sum_congr rfl h0, sum_coef]
  have hn : ∀ i, i < (if ic then n + 1 else n) → i < n ∨ (i = n ∧ ic = true) := by
    intro i hi
    cases ic
    · left; simpa using hi
    · simp only [if_true] at hi
      rcases Nat.lt_succ_iff_lt_or_eq.1 hi with h | h
      · exact Or.inl h
      · exact Or.inr ⟨h, rfl⟩
  rcases hn i hi with hi' | ⟨rfl, rfl⟩
  · rcases hn j hj with hj' | ⟨rfl, rfl⟩
    · have e : ∑ k ∈ range n, ((if i < n ∧ k < n then Q.get i k else if i = k then 1 else 0) *
          (if j < n ∧ k < n then Q.get j k else if j = k then 1 else 0)) = ∑ k ∈ range n, Q.get i k * Q.get j k :=
        Finset.sum_congr rfl fun k hk => by
          rw [if_pos ⟨hi', Finset.mem_range.1 hk⟩, if_pos ⟨hj', Finset.mem_range.1 hk⟩]
      rw [e]
      have := h.rows i hi' j hj'
      unfold Dissect.dot at this
      rw [this]
      have h1 : ¬ i = n := by omega
      cases ic <;> simp [h1]
    · rw [Finset.sum_eq_zero (fun k hk => ?_)]
      · have h1 : ¬ i = j := by omega
        simp [h1]
      · have := Finset.mem_range.1 hk
        have h2 : ¬ j = k := by omega
        simp [h2]
  · rcases hn j hj with hj' | ⟨rfl, _⟩
    · rw [Finset.sum_eq_zero (fun k hk => ?_)]
      · have h1 : ¬ i = j := by omega
        have h2 : ¬ j = i := by omega
        simp [h1, h2]
      · have := Finset.mem_range.1 hk
        have h2 : ¬ i = k := by omega
        simp [h2]
    · rw [Finset.sum_eq_zero (fun k hk => ?_)]
      · simp
      · have := Finset.mem_range.1 hk
        have h2 : ¬ j = k := by omega
        simp [h2]

theorem design_turn {n : ℕ} {A Q : Mat ℝ} (h : IsOrtho n Q) (hA : A.nc = n) (ic : Bool) :
    design (A.mul Q) ic = (design A ic).mul (extQ n Q ic) := by
  have hnc : (A.mul Q).nc = n := h.nc
  refine Mat.ext' rfl (by show numCoef (A.mul Q) ic = _; unfold numCoef; rw [hnc]; rfl) fun i j hi hj => ?_
  have hi' : i < A.nr := hi
  have hj' : j < numCoef (A.mul Q) ic := hj
  have hN : numCoef A ic = if ic then n + 1 else n := by unfold numCoef; rw [hA]
  have hj2 : j < if ic then n + 1 else n := by unfold numCoef at hj'; rw [hnc] at hj'; exact hj'
  rw [Mat.mul_get, show (design A ic).nc = if ic then n + 1 else n from hN, sum_extQ hj2]
  unfold design
  rw [Mat.of_get_lt (by exact hi') hj', hnc]
  split
  · rename_i hjn
    rw [Mat.mul_get, hA]
    refine Finset.sum_congr rfl fun k hk => ?_
    have hk' := Finset.mem_range.1 hk
    rw [Mat.of_get_lt hi' (by rw [hN]; split <;> omega), if_pos (by omega)]
  · rw [Mat.of_get_lt hi' (by rw [hN]; exact hj2), if_neg (by omega)]

theorem gram_turn {n : ℕ} {A Q : Mat ℝ} (h : IsOrtho n Q) (hA : A.nc = n) (lam : ℝ) (ic : Bool) :
    ridgeGram (A.mul Q) lam ic = ((extQ n Q ic).transpose.mul (ridgeGram A lam ic)).mul (extQ n Q ic) := by
  have hnc : (A.mul Q).nc = n := h.nc
  have hN' : numCoef (A.mul Q) ic = if ic then n + 1 else n := by unfold numCoef; rw [hnc]
  have hN : numCoef A ic = if ic then n + 1 else n := by unfold numCoef; rw [hA]
  refine Mat.ext' (by exact hN') (by exact hN') fun i j hi hj => ?_
  have hi0 : i < numCoef (A.mul Q) ic := hi
  have hj0 : j < numCoef (A.mul Q) ic := hj
  have hi' := hi0
  have hj' := hj0
  rw [hN'] at hi' hj'
  set N := if ic then n + 1 else n with hNd
  have hE := h.ext ic
  rw [← hNd] at hE
  have hG : ∀ a ∈ range N, ∀ b ∈ range N, (ridgeGram A lam ic).get a b =
      ∑ k ∈ range A.nr, (design A ic).get k a * (design A ic).get k b + if a = b ∧ a < n then lam else 0 := by
    intro a ha b hb
    unfold ridgeGram
    rw [Mat.of_get_lt (by rw [hN]; exact Finset.mem_range.1 ha) (by rw [hN]; exact Finset.mem_range.1 hb), hA]
  have hL : (ridgeGram (A.mul Q) lam ic).get i j =
      ∑ k ∈ range A.nr, (∑ a ∈ range N, (design A ic).get k a * (extQ n Q ic).get a i) *
        (∑ a ∈ range N, (design A ic).get k a * (extQ n Q ic).get a j) + if i = j ∧ i < n then lam else 0 := by
    unfold ridgeGram
    rw [Mat.of_get_lt hi0 hj0, hnc, design_turn h hA]
    have hd : (design A ic).nc = N := hN
    simp only [Mat.mul_get, hd]
    rfl
  have hR : (((extQ n Q ic).transpose.mul (ridgeGram A lam ic)).mul (extQ n Q ic)).get i j =
      ∑ b ∈ range N, (∑ a ∈ range N, (extQ n Q ic).get a i * (ridgeGram A lam ic).get a b) * (extQ n Q ic).get b j := by
    show ∑ b ∈ range (numCoef A ic), _ = _
    rw [hN]
    rfl
  rw [hL, hR]
  have hpen : ∑ b ∈ range N, (∑ a ∈ range N, (extQ n Q ic).get a i * (if a = b ∧ a < n then lam else 0)) * (extQ n Q ic).get b j =
      if i = j ∧ i < n then lam else 0 := by
    have hnN : n ≤ N := by rw [hNd]; split <;> omega
    have e1 : ∀ b ∈ range N, (∑ a ∈ range N, (extQ n Q ic).get a i * (if a = b ∧ a < n then lam else 0)) * (extQ n Q ic).get b j =
        if b < n then lam * ((extQ n Q ic).get b i * (extQ n Q ic).get b j) else 0 := by
      intro b hb
      have : ∀ a ∈ range N, (extQ n Q ic).get a i * (if a = b ∧ a < n then lam else 0) =
          if a = b then (if b < n then (extQ n Q ic).get b i * lam else 0) else 0 := by
        intro a _
        by_cases hab : a = b
        · subst hab; simp
        · simp [hab]
      rw [Finset.sum_congr rfl this, Finset.sum_ite_eq', if_pos hb]
      split
      · ring
      · simp
    rw [Finset.sum_congr rfl e1, ← Finset.sum_filter, ← Finset.mul_sum]
    have hfil : (range N).filter (fun b => b < n) = range n := by
      ext b; simp only [Finset.mem_filter, Finset.mem_range]; omega
    rw [hfil]
    by_cases hin : i < n
    · by_cases hjn : j < n
      · have : ∀ b ∈ range n, (extQ n Q ic).get b i * (extQ n Q ic).get b j = Q.get b i * Q.get b j := by
          intro b hb
          have hb' := Finset.mem_range.1 hb
          rw [extQ_get (by rw [← hNd]; omega) (by rw [← hNd]; omega), extQ_get (by rw [← hNd]; omega) (by rw [← hNd]; omega),
            if_pos ⟨hb', hin⟩, if_pos ⟨hb', hjn⟩]
        rw [Finset.sum_congr rfl this, h.cols hin hjn]
        by_cases hij : i = j
        · simp [hij, hjn]
        · simp [hij]
      · rw [Finset.sum_eq_zero, mul_zero, if_neg (by omega)]
        intro b hb
        have hb' := Finset.mem_range.1 hb
        rw [extQ_get (i := b) (j := j) (by rw [← hNd]; omega) (by rw [← hNd]; omega), if_neg (by omega), if_neg (by omega), mul_zero]
    · rw [Finset.sum_eq_zero, mul_zero, if_neg (by omega)]
      intro b hb
      have hb' := Finset.mem_range.1 hb
      rw [extQ_get (i := b) (j := i) (by rw [← hNd]; omega) (by rw [← hNd]; omega), if_neg (by omega), if_neg (by omega), zero_mul]
  rw [← hpen]
  have e2 : ∀ b ∈ range N, (∑ a ∈ range N, (extQ n Q ic).get a i * (ridgeGram A lam ic).get a b) * (extQ n Q ic).get b j =
      ∑ k ∈ range A.nr, (∑ a ∈ range N, (design A ic).get k a * (extQ n Q ic).get a i) *
          ((design A ic).get k b * (extQ n Q ic).get b j) +
        (∑ a ∈ range N, (extQ n Q ic).get a i * (if a = b ∧ a < n then lam else 0)) * (extQ n Q ic).get b j := by
    intro b hb
    rw [Finset.sum_congr rfl (fun a ha => by rw [hG a ha b hb])]
    simp only [mul_add]
    rw [Finset.sum_add_distrib, add_mul]
    congr 1
    simp only [Finset.mul_sum, Finset.sum_mul]
    rw [Finset.sum_comm]
    exact Finset.sum_congr rfl fun k _ => Finset.sum_congr rfl fun a _ => by ring
  rw [Finset.sum_congr rfl e2, Finset.sum_add_distrib]
  congr 1
  rw [Finset.sum_comm]
  exact Finset.sum_congr rfl fun k _ => by rw [Finset.mul_sum]


theorem pinv_turn {n : ℕ} {M P E : Mat ℝ} (h : IsOrtho n E) (hr : M.nr = n) (hc : M.nc = n) (hP : IsPinv M P) :
    IsPinv ((E.transpose.mul M).mul E) ((E.transpose.mul P).mul E) := by
  have hPr : P.nr = n := hP.nr.trans hc
  have hPc : P.nc = n := hP.nc.trans hr
  have key : ∀ X Y : Mat ℝ, X.nc = n → ((E.transpose.mul X).mul E).mul ((E.transpose.mul Y).mul E) =
      (E.transpose.mul (X.mul Y)).mul E := by
    intro X Y hX
    calc ((E.transpose.mul X).mul E).mul ((E.transpose.mul Y).mul E)
        = (E.transpose.mul (X.mul ((E.mul E.transpose).mul Y))).mul E := by simp only [Mat.mul_assoc']
      _ = (E.transpose.mul ((X.mul (E.mul E.transpose)).mul Y)).mul E := by simp only [Mat.mul_assoc']
      _ = (E.transpose.mul (X.mul Y)).mul E := by rw [h.mul_transpose, Mat.mul_identity hX]
  have tr : ∀ X : Mat ℝ, X.nr = n → X.nc = n → X.transpose = X →
      ((E.transpose.mul X).mul E).transpose = (E.transpose.mul X).mul E := by
    intro X hr hc hX
    rw [Mat.transpose_mul' (A := E.transpose.mul X) (B := E) (hc.trans h.nr.symm),
      Mat.transpose_mul' (A := E.transpose) (B := X) (h.nr.trans hr.symm), hX, Mat.transpose_transpose', Mat.mul_assoc']
  refine ⟨rfl, rfl, ?_, ?_, ?_, ?_⟩
  · rw [key M P hc, key _ M (by exact hPc), hP.one]
  · rw [key P M hPc, key _ P (by exact hc), hP.two]
  · rw [key M P hc]; exact tr _ hr hPc hP.three
  · rw [key P M hPc]; exact tr _ hPr hc hP.four

/-- The trace of the hat matrix. -/
theorem had_total (D T : Mat ℝ) (hr : T.nr = D.nc) (hc : T.nc = D.nr) :
    (D.transpose.had T).total = ∑ k ∈ range D.nr, (D.mul T).get k k := by
  unfold Mat.total
  show ∑ i ∈ range D.nc, ∑ k ∈ range D.nr, D.get k i * T.get i k = _
  rw [Finset.sum_comm]
  rfl

theorem norm_turn {p : ℕ} {R A : Mat ℝ} (h : IsOrtho p R) (hA : A.nc = p) (ty ty' : MTy) :
    (⟨ty', A.mul R⟩ : TMat ℝ).norm = (⟨ty, A⟩ : TMat ℝ).norm := by
  unfold TMat.norm
  congr 1
  show ∑ i ∈ range A.nr, ∑ j ∈ range R.nc, (A.mul R).get i j ^ 2 = ∑ i ∈ range A.nr, ∑ j ∈ range A.nc, A.get i j ^ 2
  refine Finset.sum_congr rfl fun i _ => ?_
  rw [h.nc, hA, ← h.sq (A.get i)]
  refine Finset.sum_congr rfl fun j _ => ?_
  rw [Mat.mul_get, hA]
  rfl

theorem sub_mul_turn {A B R : Mat ℝ} (hr : A.nr = B.nr) (hc : A.nc = B.nc) : (A.mul R).sub (B.mul R) = (A.sub B).mul R := by
  refine Mat.ext' rfl rfl fun i j _ _ => ?_
  rw [Mat.sub_get (A := A.mul R) (B := B.mul R) hr rfl, Mat.mul_get, Mat.mul_get, Mat.mul_get, hc]
  show _ = ∑ k ∈ range A.nc, (A.sub B).get i k * R.get k j
  rw [hc, ← Finset.sum_sub_distrib]
  refine Finset.sum_congr rfl fun k _ => ?_
  rw [Mat.sub_get hr hc]
  ring

/-- Ridge regression in the turned coordinates. -/
theorem ridge_turn {env : Env} (henv : env.Ideal) (ty ty' : MTy) {A B Q R : Mat ℝ} {n p : ℕ} (hQ : IsOrtho n Q) (hR : IsOrtho p R)
    (hA : A.nc = n) (hB : B.nc = p) (lam : ℝ) (ic : Bool) (hr : A.nr = B.nr) (h1 : 0 < A.nr) (h2 : 0 < n) (h3 : 0 < p) :
    ∃ X tr err, ridgeRegression env ⟨ty, A⟩ ⟨ty, B⟩ lam ic = .ok (⟨ty, X⟩, tr, err) ∧
      ridgeRegression env ⟨ty', A.mul Q⟩ ⟨ty', B.mul R⟩ lam ic =
        .ok (⟨ty', ((extQ n Q ic).transpose.mul X).mul R⟩, tr, err) ∧
      X.nr = numCoef A ic ∧ X.nc = B.nc := by
  obtain ⟨P, hP, hpin⟩ := henv.pinv (ridgeGram A lam ic)
  obtain ⟨P', hP', hpin'⟩ := henv.pinv (ridgeGram (A.mul Q) lam ic)
  have hN : numCoef A ic = if ic then n + 1 else n := by unfold numCoef; rw [hA]
  have hE := hQ.ext ic
  have hPr : P.nr = if ic then n + 1 else n := hpin.nr.trans hN
  have hPc : P.nc = if ic then n + 1 else n := hpin.nc.trans hN
  have hPP : P' = ((extQ n Q ic).transpose.mul P).mul (extQ n Q ic) := by
    refine hpin'.unique ?_
    rw [gram_turn hQ hA]
    exact pinv_turn hE hN hN hpin
  refine ⟨_, _, _, ridgeRegression_ok env ⟨ty, A⟩ ⟨ty, B⟩ lam ic rfl hr h1 (by show 0 < A.nc; omega) (by show 0 < B.nc; omega)
    P hP hpin.nr hpin.nc, ?_, hpin.nr, rfl⟩
  rw [ridgeRegression_ok env ⟨ty', A.mul Q⟩ ⟨ty', B.mul R⟩ lam ic rfl hr h1 (by show 0 < Q.nc; rw [hQ.nc]; omega)
    (by show 0 < R.nc; rw [hR.nc]; omega) P' hP' hpin'.nr hpin'.nc]
  simp only
  rw [design_turn hQ hA, hPP]
  set D := design A ic with hD
  set E := extQ n Q ic with hEd
  have hDc : D.nc = if ic then n + 1 else n := hN
  have hET : (D.mul E).transpose = E.transpose.mul D.transpose := Mat.transpose_mul' (A := D) (B := E) (hDc.trans hE.nr.symm)
  have k1 : ((E.transpose.mul P).mul E).mul (D.mul E).transpose = E.transpose.mul (P.mul D.transpose) := by
    rw [hET]
    calc ((E.transpose.mul P).mul E).mul (E.transpose.mul D.transpose)
        = E.transpose.mul ((P.mul (E.mul E.transpose)).mul D.transpose) := by simp only [Mat.mul_assoc']
      _ = E.transpose.mul (P.mul D.transpose) := by rw [hE.mul_transpose, Mat.mul_identity hPc]
  have k2 : ∀ Z : Mat ℝ, (D.mul E).mul (E.transpose.mul Z) = D.mul Z := by
    intro Z
    calc (D.mul E).mul (E.transpose.mul Z) = (D.mul (E.mul E.transpose)).mul Z := by simp only [Mat.mul_assoc']
      _ = D.mul Z := by rw [hE.mul_transpose, Mat.mul_identity hDc]
  have k3 : (((E.transpose.mul P).mul E).mul (D.mul E).transpose).mul (B.mul R) =
      (E.transpose.mul ((P.mul D.transpose).mul B)).mul R := by rw [k1]; simp only [Mat.mul_assoc']
  rw [k3]
  have t1 : ((D.mul E).transpose.had (((E.transpose.mul P).mul E).mul (D.mul E).transpose)).total =
      (D.transpose.had (P.mul D.transpose)).total := by
    rw [k1, had_total (D.mul E) _ rfl rfl, had_total D (P.mul D.transpose) (by show P.nr = _; rw [hPr, hDc]) rfl, k2]
    rfl
  have t2 : (⟨ty', ((D.mul E).mul ((E.transpose.mul ((P.mul D.transpose).mul B)).mul R)).sub (B.mul R)⟩ : TMat ℝ).norm =
      (⟨ty, (D.mul ((P.mul D.transpose).mul B)).sub B⟩ : TMat ℝ).norm := by
    have e : (D.mul E).mul ((E.transpose.mul ((P.mul D.transpose).mul B)).mul R) = (D.mul ((P.mul D.transpose).mul B)).mul R := by
      rw [← Mat.mul_assoc' (D.mul E), k2]
    rw [e, sub_mul_turn (A := D.mul ((P.mul D.transpose).mul B)) (B := B) hr rfl]
    exact norm_turn (A := (D.mul ((P.mul D.transpose).mul B)).sub B) hR hB ty ty'
  rw [t1, t2]

theorem sqResid_frob {A B Y : Mat ℝ} {p : ℕ} (hB : B.nc = p) : sqResid A B Y false =
    ∑ i ∈ range A.nr, ∑ j ∈ range p, ((A.mul Y).get i j - B.get i j) ^ 2 := by
  unfold sqResid predict
  simp only [Bool.false_eq_true, if_false, add_zero, hB, Mat.mul_get]

theorem sqResid_turn {A B Y Z E R : Mat ℝ} {N p : ℕ} (hE : IsOrtho N E) (hR : IsOrtho p R) (hA : A.nc = N) (hB : B.nc = p)
    (hYc : Y.nc = p) (hZ : Z = (E.transpose.mul Y).mul R) :
    sqResid (A.mul E) (B.mul R) Z false = sqResid A B Y false := by
  rw [sqResid_frob (show (B.mul R).nc = p from hR.nc), sqResid_frob hB]
  refine Finset.sum_congr rfl fun i _ => ?_
  have k : (A.mul E).mul Z = (A.mul Y).mul R := by
    subst hZ
    calc (A.mul E).mul ((E.transpose.mul Y).mul R) = ((A.mul (E.mul E.transpose)).mul Y).mul R := by simp only [Mat.mul_assoc']
      _ = (A.mul Y).mul R := by rw [hE.mul_transpose, Mat.mul_identity hA]
  rw [k, ← hR.sq (fun j => (A.mul Y).get i j - B.get i j)]
  refine Finset.sum_congr rfl fun j _ => ?_
  congr 1
  rw [Mat.mul_get (A.mul Y), Mat.mul_get B, show (A.mul Y).nc = p from hYc, hB]
  unfold turn
  rw [← Finset.sum_sub_distrib]
  exact Finset.sum_congr rfl fun k _ => by ring

theorem frobSq_turn {Y E R : Mat ℝ} {N p : ℕ} (hE : IsOrtho N E) (hR : IsOrtho p R) (hYr : Y.nr = N) (hYc : Y.nc = p) :
    frobSq ((E.transpose.mul Y).mul R) = frobSq Y := by
  have h1 : frobSq ((E.transpose.mul Y).mul R) = frobSq (E.transpose.mul Y) := by
    unfold frobSq
    refine Finset.sum_congr rfl fun i _ => ?_
    show ∑ j ∈ range R.nc, ((E.transpose.mul Y).mul R).get i j ^ 2 = ∑ j ∈ range Y.nc, _
    rw [hR.nc, hYc, ← hR.sq ((E.transpose.mul Y).get i)]
    refine Finset.sum_congr rfl fun j _ => ?_
    rw [Mat.mul_get (E.transpose.mul Y), show (E.transpose.mul Y).nc = p from hYc]
    rfl
  rw [h1]
  unfold frobSq
  rw [Finset.sum_comm, Finset.sum_comm (s := range Y.nr)]
  refine Finset.sum_congr rfl fun j _ => ?_
  show ∑ i ∈ range E.nc, (E.transpose.mul Y).get i j ^ 2 = _
  rw [hE.nc, hYr, ← hE.sq (fun i => Y.get i j)]
  refine Finset.sum_congr rfl fun i _ => ?_
  rw [Mat.mul_get, show E.transpose.nc = N from hE.nr]
  unfold turn
  congr 1
  exact Finset.sum_congr rfl fun k _ => mul_comm _ _

theorem sqResid_trunc (A B Y : Mat ℝ) : sqResid A B (Mat.of A.nc B.nc Y.get) false = sqResid A B Y false := by
  unfold sqResid predict
  refine Finset.sum_congr rfl fun i _ => Finset.sum_congr rfl fun j hj => ?_
  congr 3
  refine Finset.sum_congr rfl fun k hk => ?_
  rw [Mat.of_get_lt (Finset.mem_range.1 hk) (Finset.mem_range.1 hj)]

theorem turn_back {Y E R : Mat ℝ} {N p : ℕ} (hE : IsOrtho N E) (hR : IsOrtho p R) (hYr : Y.nr = N) (hYc : Y.nc = p) :
    Y = (E.transpose.mul ((E.mul Y).mul R.transpose)).mul R := by
  calc Y = (Mat.identity N).mul (Y.mul (Mat.identity p)) := by rw [Mat.mul_identity hYc, Mat.identity_mul hYr]
    _ = (E.transpose.mul E).mul (Y.mul (R.transpose.mul R)) := by rw [hE.transpose_mul, hR.transpose_mul]
    _ = _ := by simp only [Mat.mul_assoc']

theorem minNorm_turn {A B X E R : Mat ℝ} {N p : ℕ} (hE : IsOrtho N E) (hR : IsOrtho p R) (hA : A.nc = N) (hB : B.nc = p)
    (h : IsMinNormLstsq A B X) : IsMinNormLstsq (A.mul E) (B.mul R) ((E.transpose.mul X).mul R) := by
  have hXr : X.nr = N := h.solves.nr.trans hA
  have hXc : X.nc = p := h.solves.nc.trans hB
  have hX := sqResid_turn (Z := (E.transpose.mul X).mul R) hE hR hA hB hXc rfl
  refine ⟨⟨rfl, rfl, fun Y => ?_⟩, fun Y e1 e2 e3 => ?_⟩
  · rw [hX, ← sqResid_trunc (A.mul E) (B.mul R) Y]
    have hb := turn_back (Y := Mat.of (A.mul E).nc (B.mul R).nc Y.get) hE hR hE.nc hR.nc
    rw [sqResid_turn hE hR hA hB (by exact hR.nr) hb]
    exact h.solves.min _
  · have hYr : Y.nr = N := e1.trans hE.nc
    have hYc : Y.nc = p := e2.trans hR.nc
    have hb := turn_back (Y := Y) hE hR hYr hYc
    rw [hX, sqResid_turn hE hR hA hB (by exact hR.nr) hb] at e3
    rw [frobSq_turn hE hR hXr hXc, hb, frobSq_turn (Y := (E.mul Y).mul R.transpose) hE hR hE.nr hR.nr]
    exact h.shortest _ (by rw [hXr]; exact hE.nr) (by rw [hXc]; exact hR.nr) e3

/-- The learners in the turned coordinates. -/
theorem learner_turn {env : Env} (henv : env.Ideal) {l : Learner} (hl : l.Built) (ty ty' : MTy) {A B Q R : Mat ℝ} {n p : ℕ}
    (hQ : IsOrtho n Q) (hR : IsOrtho p R) (hA : A.nc = n) (hB : B.nc = p) (hr : A.nr = B.nr) (h1 : 0 < A.nr) (h2 : 0 < n) (h3 : 0 < p) :
    ∃ X : Mat ℝ, l.train env ⟨ty, A⟩ ⟨ty, B⟩ = .ok ⟨ty, X⟩ ∧
      l.train env ⟨ty', A.mul Q⟩ ⟨ty', B.mul R⟩ = .ok ⟨ty', ((extQ n Q l.hasIntercept).transpose.mul X).mul R⟩ ∧
      X.nr = numCoef A l.hasIntercept ∧ X.nc = B.nc := by
  cases l with
  | lstsq ic =>
    have hN : numCoef A ic = if ic then n + 1 else n := by unfold numCoef; rw [hA]
    obtain ⟨X, e1, m1⟩ := lstsq_result henv ⟨ty, A⟩ ⟨ty, B⟩ ic rfl hr h1 (by show 0 < A.nc; omega) (by show 0 < B.nc; omega)
    obtain ⟨X', e2, m2⟩ := lstsq_result henv ⟨ty', A.mul Q⟩ ⟨ty', B.mul R⟩ ic rfl hr h1 (by show 0 < Q.nc; rw [hQ.nc]; omega)
      (by show 0 < R.nc; rw [hR.nc]; omega)
    simp only at m1 m2
    rw [design_turn hQ hA] at m2
    obtain rfl := minNorm_unique m2 (minNorm_turn (hQ.ext ic) hR hN hB m1)
    exact ⟨X, e1, e2, m1.solves.nr, m1.solves.nc⟩
  | ridge ic cv rng par =>
    cases cv with
    | false =>
      obtain h | ⟨q, rfl⟩ := hl.ridge
      · cases h
      obtain ⟨X, tr, err, e1, e2, e3, e4⟩ := ridge_turn henv ty ty' hQ hR hA hB q ic hr h1 h2 h3
      refine ⟨X, ?_, ?_, e3, e4⟩
      · simp only [Learner.train, e1, ok_bind, pure_eq_ok]
      · simp only [Learner.train, e2, ok_bind, pure_eq_ok]; rfl
    | true =>
      have hs := fun q => ridge_turn henv ty ty' hQ hR hA hB q ic hr h1 h2 h3
      obtain ⟨Z, hZ⟩ := C53_succeeds env ⟨ty, A⟩ ⟨ty, B⟩ ic rng par (fun q _ => by
        obtain ⟨X, tr, err, e1, _⟩ := hs q; exact ⟨_, e1⟩)
      obtain ⟨Z', hZ'⟩ := C53_succeeds env ⟨ty', A.mul Q⟩ ⟨ty', B.mul R⟩ ic rng par (fun q _ => by
        obtain ⟨X, tr, err, _, e1, _⟩ := hs q; exact ⟨_, e1⟩)
      obtain ⟨q, tr, err, m1, e1⟩ := C53_first_minimiser _ _ _ _ _ _ _ hZ
      obtain ⟨q', tr', err', m2, e2⟩ := C53_first_minimiser _ _ _ _ _ _ _ hZ'
      have hsc : ridgeScore env ⟨ty', A.mul Q⟩ ⟨ty', B.mul R⟩ ic = ridgeScore env ⟨ty, A⟩ ⟨ty, B⟩ ic := by
        funext q
        obtain ⟨X, tr, err, e1, e2, _⟩ := hs q
        unfold ridgeScore
        rw [e1, e2]
        rfl
      rw [hsc] at m2
      obtain rfl := firstMin_unique m2 m1
      obtain ⟨X, tr0, err0, d1, d2, d3, d4⟩ := hs q'
      rw [d1] at e1
      rw [d2] at e2
      have f1 := congrArg Prod.fst (ok_inj e1)
      have f2 := congrArg Prod.fst (ok_inj e2)
      exact ⟨X, by rw [hZ]; exact congrArg _ f1.symm, by rw [hZ']; exact congrArg _ f2.symm, d3, d4⟩

/-- The predictions in the turned coordinates are the turned predictions. -/
theorem predictVec_turn {n p : ℕ} {Q R X : Mat ℝ} (hQ : IsOrtho n Q) {ic : Bool}
    (hXr : X.nr = if ic then n + 1 else n) (hXc : X.nc = p) {x x' : ℕ → ℝ} (hx : ∀ j < n, x' j = turn n Q x j) (j : ℕ) :
    predictVec n (((extQ n Q ic).transpose.mul X).mul R).get ic x' j = turn p R (predictVec n X.get ic x) j := by
  set N := if ic then n + 1 else n with hN
  have hE := hQ.ext ic
  rw [← hN] at hE
  -- the rows of the coefficient matrix
  have hW : ∀ k, (((extQ n Q ic).transpose.mul X).mul R).get k j =
      ∑ b ∈ range p, (∑ a ∈ range N, (extQ n Q ic).get a k * X.get a b) * R.get b j := by
    intro k
    rw [Mat.mul_get, show ((extQ n Q ic).transpose.mul X).nc = p from hXc]
    refine Finset.sum_congr rfl fun b _ => ?_
    rw [Mat.mul_get, show (extQ n Q ic).transpose.nc = N from hE.nr]
    rfl
  have hnN : n ≤ N := by rw [hN]; split <;> omega
  have hcol : ∀ k < n, ∀ b, ∑ a ∈ range N, (extQ n Q ic).get a k * X.get a b = ∑ a ∈ range n, Q.get a k * X.get a b := by
    intro k hk b
    have := sum_extQ (Q := Q) (ic := ic) (j := k) (by rw [← hN]; omega) (fun a => X.get a b)
    rw [if_pos hk, ← hN] at this
    rw [Finset.sum_congr rfl (fun a _ => mul_comm _ _), this]
    exact Finset.sum_congr rfl (fun a _ => mul_comm _ _)
  have hmain : ∀ b, ∑ k ∈ range n, x' k * ∑ a ∈ range n, Q.get a k * X.get a b = ∑ a ∈ range n, x a * X.get a b := by
    intro b
    have h0 := hQ.dot x (fun a => X.get a b)
    unfold Dissect.dot at h0
    rw [← h0]
    refine Finset.sum_congr rfl fun k hk => ?_
    rw [hx k (Finset.mem_range.1 hk)]
    congr 1
    unfold turn
    exact Finset.sum_congr rfl fun a _ => mul_comm _ _
  unfold predictVec
  have e1 : ∑ k ∈ range n, x' k * (((extQ n Q ic).transpose.mul X).mul R).get k j =
      ∑ b ∈ range p, (∑ a ∈ range n, x a * X.get a b) * R.get b j := by
    have : ∀ k ∈ range n, x' k * (((extQ n Q ic).transpose.mul X).mul R).get k j =
        ∑ b ∈ range p, (x' k * ∑ a ∈ range n, Q.get a k * X.get a b) * R.get b j := by
      intro k hk
      rw [hW, Finset.mul_sum]
      refine Finset.sum_congr rfl fun b _ => ?_
      rw [hcol k (Finset.mem_range.1 hk)]
      ring
    rw [Finset.sum_congr rfl this, Finset.sum_comm]
    refine Finset.sum_congr rfl fun b _ => ?_
    rw [← Finset.sum_mul, hmain]
  rw [e1]
  unfold turn
  cases ic with
  | false => simp
  | true =>
    simp only [if_true]
    have hlast : (((extQ n Q true).transpose.mul X).mul R).get n j = ∑ b ∈ range p, X.get n b * R.get b j := by
      rw [hW]
      refine Finset.sum_congr rfl fun b _ => ?_
      have := sum_extQ (n := n) (Q := Q) (ic := true) (j := n) (by simp) (fun a => X.get a b)
      rw [if_neg (lt_irrefl n), ← hN] at this
      rw [Finset.sum_congr rfl (fun a _ => mul_comm _ _), this]
    rw [hlast, ← Finset.sum_add_distrib]
    exact Finset.sum_congr rfl fun b _ => by ring

end
end Dissect
