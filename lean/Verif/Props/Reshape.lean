import Verif.Lemmas.Csr
import Verif.Lemmas.Matrix
import Mathlib.Tactic.Ring
import Mathlib.Tactic.Linarith

/-!
# Properties of `SparseMatrix.reshape`: C32 (row-major, lossless) and C33 (no overflow)
-/

namespace Dissect
open Finset

/-- Row-major reshape, said without division: the cell with linear position `i*nc + j` keeps its value. -/
def RowMajorReshape {K : Type} [Zero K] (A B : Mat K) (m n : ℕ) : Prop :=
  B.nr = m ∧ B.nc = n ∧
    ∀ i j i' j', i < A.nr → j < A.nc → i' < m → j' < n → i * A.nc + j = i' * n + j' → B.get i' j' = A.get i j

section C32
variable {K : Type} [AddCommMonoid K]

/-- Every stored coordinate lies inside the shape (what `tocoo` of a well formed matrix yields). -/
def Coo.InShape {K : Type} (c : Coo K) : Prop := ∀ e ∈ c.entries, e.1 < c.nr ∧ e.2.1 < c.nc

theorem newCoord_spec {nc n r c : ℕ} (hn : 0 < n) :
    (Coo.newCoord nc n r c).1 * n + (Coo.newCoord nc n r c).2 = r * nc + c ∧
      (Coo.newCoord nc n r c).2 < n := by
  simp only [Coo.newCoord]
  have h := Nat.div_add_mod (r * nc + c) n
  have h2 := Nat.mod_lt (r * nc + c) hn
  rw [Nat.mul_comm] at h
  constructor
  · omega
  · omega

theorem lin_inj {n i j i' j' : ℕ} (hj : j < n) (hj' : j' < n) (h : i * n + j = i' * n + j') :
    i = i' ∧ j = j' := by
  have h1 : (i * n + j) / n = i := by
    rw [Nat.mul_comm, Nat.mul_add_div (by omega), Nat.div_eq_of_lt hj, Nat.add_zero]
  have h2 : (i' * n + j') / n = i' := by
    rw [Nat.mul_comm, Nat.mul_add_div (by omega), Nat.div_eq_of_lt hj', Nat.add_zero]
  have : i = i' := by rw [← h1, ← h2, h]
  subst this
  exact ⟨rfl, by omega⟩

theorem coo_reshape_rowMajor {c : Coo K} (hin : c.InShape) {m n : ℕ} {d : Coo K}
    (h : c.reshape m n = .ok d) : RowMajorReshape c.toMat d.toMat m n ∧ d.InShape := by
  unfold Coo.reshape at h
  split at h
  · cases h
  · rename_i hsize
    have hsize : c.nr * c.nc = m * n := by omega
    injection h with h
    subst h
    refine ⟨⟨rfl, rfl, ?_⟩, ?_⟩
    · intro i j i' j' hi hj hi' hj' hlin
      have hi : i < c.nr := hi
      have hj : j < c.nc := hj
      have hlin : i * c.nc + j = i' * n + j' := hlin
      have hn : 0 < n := by omega
      unfold Coo.toMat
      rw [Mat.of_get_lt hi' hj', Mat.of_get_lt hi hj]
      rw [List.filter_map, List.map_map]
      have hcomp : ∀ e ∈ c.entries,
          ((fun e : ℕ × ℕ × K => decide (e.1 = i' ∧ e.2.1 = j')) ∘ fun e =>
            ((Coo.newCoord c.nc n e.1 e.2.1).1, (Coo.newCoord c.nc n e.1 e.2.1).2, e.2.2)) e =
          decide (e.1 = i ∧ e.2.1 = j) := by
        intro e he
        obtain ⟨_, hc⟩ := hin e he
        obtain ⟨s1, s2⟩ := newCoord_spec (nc := c.nc) (r := e.1) (c := e.2.1) hn
        simp only [Function.comp]
        rw [decide_eq_decide]
        constructor
        · rintro ⟨a, b⟩
          rw [a, b] at s1
          exact lin_inj hc hj (by omega)
        · rintro ⟨a, b⟩
          rw [a, b] at s1 s2 ⊢
          exact lin_inj s2 hj' (by omega)
      rw [List.filter_congr hcomp]
      rfl
    · intro e he
      obtain ⟨e0, he0, rfl⟩ := List.mem_map.1 he
      obtain ⟨hr, hc⟩ := hin e0 he0
      have hn : 0 < n := by
        rcases Nat.eq_zero_or_pos n with h0 | h0
        · subst h0
          rw [Nat.mul_zero] at hsize
          rcases Nat.mul_eq_zero.1 hsize with h1 | h1 <;> omega
        · exact h0
      obtain ⟨s1, s2⟩ := newCoord_spec (nc := c.nc) (r := e0.1) (c := e0.2.1) hn
      refine ⟨?_, s2⟩
      change (Coo.newCoord c.nc n e0.1 e0.2.1).1 < m
      by_contra hge
      have h1 : m * n ≤ (Coo.newCoord c.nc n e0.1 e0.2.1).1 * n := Nat.mul_le_mul_right n (by omega)
      have h2 : e0.1 * c.nc + e0.2.1 < c.nr * c.nc := by
        have : (e0.1 + 1) * c.nc ≤ c.nr * c.nc := Nat.mul_le_mul_right _ (by omega)
        rw [Nat.add_mul] at this
        omega
      omega

/-- The triples of `tocoo` denote the same matrix as the arrays. -/
theorem toCoo_toMat (c : Csr K) : c.toCoo.toMat = c.toMat := by
  refine Mat.ext' rfl rfl (fun i j hi hj => ?_)
  have hi : i < c.nr := hi
  have hj : j < c.nc := hj
  rw [Csr.toMat_get hi hj]
  unfold Coo.toMat
  rw [Mat.of_get_lt (by exact hi) (by exact hj)]
  simp only [Csr.toCoo]
  have key : ∀ n, n ≤ c.nr → (((List.range n).flatMap (fun i => (c.rowList i).map (fun e => (i, e.1, e.2)))).filter
      (fun e => decide (e.1 = i ∧ e.2.1 = j))).map (fun e => e.2.2) =
      if i < n then ((c.rowList i).filter (fun e => decide (e.1 = j))).map Prod.snd else [] := by
    intro n
    induction n with
    | zero => intro _; simp
    | succ n ih =>
      intro hn
      rw [List.range_succ, List.flatMap_append, List.filter_append, List.map_append, ih (by omega)]
      simp only [List.flatMap_cons, List.flatMap_nil, List.append_nil, List.filter_map, List.map_map]
      by_cases hin : i = n
      · subst hin
        rw [if_neg (by omega), if_pos (by omega), List.nil_append]
        simp [Function.comp_def]
      · have : (c.rowList n).filter ((fun e : ℕ × ℕ × K => decide (e.1 = i ∧ e.2.1 = j)) ∘ fun e => (n, e.1, e.2))
            = [] := by
          rw [List.filter_eq_nil_iff]
          intro e _
          simp only [Function.comp, decide_eq_true_eq]
          omega
        rw [this]
        by_cases hlt : i < n
        · rw [if_pos hlt, if_pos (by omega)]; simp
        · rw [if_neg hlt, if_neg (by omega)]; simp
  rw [key c.nr le_rfl, if_pos hi]
  rfl

omit [AddCommMonoid K] in
theorem toCoo_inShape {c : Csr K} (h : c.WF) : c.toCoo.InShape := by
  intro e he
  simp only [Csr.toCoo, List.mem_flatMap, List.mem_range, List.mem_map] at he
  obtain ⟨i, hi, e', he', rfl⟩ := he
  exact ⟨hi, Csr.mem_rowList_lt h e' he'⟩

/-- **C32** `SparseMatrix.reshape` succeeds for every shape with as many cells and is the row-major reshape. -/
theorem C32_sparse_reshape_row_major (c : Csr K) (h : c.WF) (m n : ℕ) (hsize : c.nr * c.nc = m * n) :
    ∃ d, c.toCoo.reshape m n = .ok d ∧ d.InShape ∧ RowMajorReshape c.toMat d.toMat m n := by
  have hok : ∃ d, c.toCoo.reshape m n = .ok d := by
    unfold Coo.reshape
    rw [if_neg (by simpa [Csr.toCoo] using hsize)]
    exact ⟨_, rfl⟩
  obtain ⟨d, hd⟩ := hok
  have := coo_reshape_rowMajor (toCoo_inShape h) hd
  rw [toCoo_toMat] at this
  exact ⟨d, hd, this.2, this.1⟩

omit [AddCommMonoid K] in
/-- **C32** any other shape raises `ValueError`; the object keeps its value (the model returns no new state). -/
theorem C32_sparse_reshape_wrong_size (c : Csr K) (m n : ℕ) (hsize : c.nr * c.nc ≠ m * n) :
    c.toCoo.reshape m n = .error .valueError := by
  unfold Coo.reshape
  rw [if_pos (by simpa [Csr.toCoo] using hsize)]

/-- For each cell of the target there is a cell of the source with the same linear position. -/
theorem exists_source {r c m n i' j' : ℕ} (hsize : r * c = m * n) (hi' : i' < m) (hj' : j' < n) :
    ∃ i j, i < r ∧ j < c ∧ i * c + j = i' * n + j' := by
  have hlt : i' * n + j' < m * n := by
    have : (i' + 1) * n ≤ m * n := Nat.mul_le_mul_right _ (by omega)
    rw [Nat.add_mul] at this
    omega
  have hc : 0 < c := by
    rcases Nat.eq_zero_or_pos c with h0 | h0
    · subst h0; rw [Nat.mul_zero] at hsize; omega
    · exact h0
  refine ⟨(i' * n + j') / c, (i' * n + j') % c, ?_, Nat.mod_lt _ hc, ?_⟩
  · rw [Nat.div_lt_iff_lt_mul hc]; omega
  · rw [Nat.mul_comm]; exact Nat.div_add_mod _ _

/-- **C32** the specification determines the result: two row-major reshapes of one matrix are equal. -/
theorem RowMajorReshape.unique {A B C : Mat K} {m n : ℕ} (hsize : A.nr * A.nc = m * n)
    (hB : RowMajorReshape A B m n) (hC : RowMajorReshape A C m n) : B = C := by
  refine Mat.ext' (hB.1.trans hC.1.symm) (hB.2.1.trans hC.2.1.symm) (fun i' j' hi hj => ?_)
  rw [hB.1] at hi
  rw [hB.2.1] at hj
  obtain ⟨i, j, h1, h2, h3⟩ := exists_source hsize hi hj
  rw [hB.2.2 i j i' j' h1 h2 hi hj h3, hC.2.2 i j i' j' h1 h2 hi hj h3]

/-- **C32** reshaping there and back restores the matrix. -/
theorem C32_sparse_reshape_round_trip (c : Csr K) (h : c.WF) (m n : ℕ) (d e : Coo K)
    (h1 : c.toCoo.reshape m n = .ok d) (h2 : d.reshape c.nr c.nc = .ok e) : e.toMat = c.toMat := by
  obtain ⟨r1, s1⟩ := coo_reshape_rowMajor (toCoo_inShape h) h1
  obtain ⟨r2, _⟩ := coo_reshape_rowMajor s1 h2
  rw [toCoo_toMat] at r1
  have hsize : c.nr * c.nc = m * n := by
    unfold Coo.reshape at h1
    split at h1
    · cases h1
    · rename_i hh; simpa [Csr.toCoo] using hh
  refine Mat.ext' r2.1 r2.2.1 (fun i j hi hj => ?_)
  rw [r2.1] at hi
  rw [r2.2.1] at hj
  obtain ⟨i', j', hi', hj', hl⟩ := exists_source hsize.symm hi hj
  have e1 := r1.2.2 i j i' j' hi hj hi' hj' hl.symm
  have hd : d.toMat.nr = m ∧ d.toMat.nc = n := ⟨r1.1, r1.2.1⟩
  rw [← e1]
  exact r2.2.2 i' j' i j (by rw [hd.1]; exact hi') (by rw [hd.2]; exact hj') hi hj (by rw [hd.2]; exact hl)

/-- The abstract reshape used for both classes (numpy's row-major reshape) is the same function. -/
theorem reshape_rowMajor (A : Mat K) (m n : ℕ) : RowMajorReshape A (A.reshape m n) m n := by
  refine ⟨rfl, rfl, ?_⟩
  intro i j i' j' hi hj hi' hj' hl
  unfold Mat.reshape
  rw [Mat.of_get_lt hi' hj', ← hl]
  congr 1
  · rw [Nat.mul_comm, Nat.mul_add_div (by omega), Nat.div_eq_of_lt hj, Nat.add_zero]
  · rw [Nat.mul_comm, Nat.mul_add_mod, Nat.mod_eq_of_lt hj]

/-- **C32** sparse `reshape` on the arrays = dense `reshape`. -/
theorem C32_sparse_reshape_eq_dense (c : Csr K) (h : c.WF) (m n : ℕ) :
    (∃ d, c.toCoo.reshape m n = .ok d ∧ TMat.reshape ⟨.dense, c.toMat⟩ m n = .ok ⟨.dense, d.toMat⟩) ∨
    (c.toCoo.reshape m n = .error .valueError ∧ TMat.reshape ⟨.dense, c.toMat⟩ m n = .error .valueError) := by
  by_cases hsize : c.nr * c.nc = m * n
  · left
    obtain ⟨d, hd, _, hr⟩ := C32_sparse_reshape_row_major c h m n hsize
    refine ⟨d, hd, ?_⟩
    have hs : c.toMat.nr * c.toMat.nc = m * n := hsize
    unfold TMat.reshape
    rw [if_pos (by exact hs), RowMajorReshape.unique hs hr (reshape_rowMajor c.toMat m n)]
  · right
    refine ⟨C32_sparse_reshape_wrong_size c m n hsize, ?_⟩
    unfold TMat.reshape
    rw [if_neg (by exact hsize)]

/-- non-vacuity: a 2×3 matrix with an empty row reshaped to 3×2. -/
example : let c : Csr ℤ := ⟨2, 3, [5, 7], [1, 2], [0, 2, 2]⟩
    c.toCoo.reshape 3 2 = .ok ⟨3, 2, [(0, 1, 5), (1, 0, 7)]⟩ := rfl

end C32

section C33

/-- **C33** the two formulas of `SparseMatrix.reshape` computed in `w`-bit words give the exact integers whenever the
matrix has fewer than `2^(w-1)` cells. -/
theorem C33_words_exact (w nr nc newNr newNc row col : ℕ) (hw : 0 < w) (hr : row < nr) (hc : col < nc)
    (hsize : nr * nc = newNr * newNc) (hsmall : nr * nc < 2 ^ (w - 1)) :
    ((Coo.newCoordBV (BitVec.ofNat w nc) (BitVec.ofNat w newNc) (BitVec.ofNat w row) (BitVec.ofNat w col)).1.toInt,
     (Coo.newCoordBV (BitVec.ofNat w nc) (BitVec.ofNat w newNc) (BitVec.ofNat w row) (BitVec.ofNat w col)).2.toInt) =
    (((Coo.newCoord nc newNc row col).1 : ℤ), ((Coo.newCoord nc newNc row col).2 : ℤ)) := by
  obtain ⟨w, rfl⟩ : ∃ k, w = k + 1 := ⟨w - 1, by omega⟩
  simp only [Nat.add_sub_cancel] at hsmall
  have hp : 2 ^ (w + 1) = 2 * 2 ^ w := by rw [pow_succ]; ring
  have hlin : row * nc + col < nr * nc := by
    have : (row + 1) * nc ≤ nr * nc := Nat.mul_le_mul_right _ (by omega)
    rw [Nat.add_mul] at this; omega
  have hnn : 0 < newNr ∧ 0 < newNc := by
    have : 0 < newNr * newNc := by omega
    exact ⟨Nat.pos_of_mul_pos_right this, Nat.pos_of_mul_pos_left this⟩
  have hnc : nc ≤ nr * nc := Nat.le_mul_of_pos_left _ (by omega)
  have hnew : newNc ≤ nr * nc := by rw [hsize]; exact Nat.le_mul_of_pos_left _ hnn.1
  have hrow : row ≤ row * nc := Nat.le_mul_of_pos_right _ (by omega)
  have t1 : (BitVec.ofNat (w+1) row * BitVec.ofNat (w+1) nc + BitVec.ofNat (w+1) col) =
      BitVec.ofNat (w+1) (row * nc + col) := by
    apply BitVec.eq_of_toNat_eq
    simp [BitVec.toNat_add, BitVec.toNat_mul, BitVec.toNat_ofNat]
  have mlin : (BitVec.ofNat (w+1) (row * nc + col)).toNat = row * nc + col := by
    rw [BitVec.toNat_ofNat, Nat.mod_eq_of_lt (by omega)]
  have mnew : (BitVec.ofNat (w+1) newNc).toNat = newNc := by
    rw [BitVec.toNat_ofNat, Nat.mod_eq_of_lt (by omega)]
  have msb1 : (BitVec.ofNat (w+1) (row * nc + col)).msb = false := by
    rw [BitVec.msb_eq_false_iff_two_mul_lt, mlin]; omega
  have msb2 : (BitVec.ofNat (w+1) newNc).msb = false := by
    rw [BitVec.msb_eq_false_iff_two_mul_lt, mnew]; omega
  have hdiv : (BitVec.ofNat (w+1) (row * nc + col)).sdiv (BitVec.ofNat (w+1) newNc) =
      BitVec.ofNat (w+1) ((row * nc + col) / newNc) := by
    rw [BitVec.sdiv_eq, msb1, msb2]
    apply BitVec.eq_of_toNat_eq
    simp only [BitVec.udiv_eq, BitVec.toNat_udiv, mlin, mnew]
    rw [BitVec.toNat_ofNat, Nat.mod_eq_of_lt]
    exact lt_of_le_of_lt (Nat.div_le_self _ _) (by omega)
  have hq : (row * nc + col) / newNc * newNc ≤ row * nc + col := Nat.div_mul_le_self _ _
  have hq' : (row * nc + col) / newNc ≤ row * nc + col := Nat.div_le_self _ _
  have hsub : BitVec.ofNat (w+1) (row * nc + col) -
      BitVec.ofNat (w+1) ((row * nc + col) / newNc) * BitVec.ofNat (w+1) newNc =
      BitVec.ofNat (w+1) (row * nc + col - (row * nc + col) / newNc * newNc) := by
    have hm : BitVec.ofNat (w+1) ((row * nc + col) / newNc) * BitVec.ofNat (w+1) newNc =
        BitVec.ofNat (w+1) ((row * nc + col) / newNc * newNc) := by
      apply BitVec.eq_of_toNat_eq
      simp [BitVec.toNat_mul, BitVec.toNat_ofNat]
    rw [hm]
    apply BitVec.eq_of_toNat_eq
    rw [BitVec.toNat_sub_of_le]
    · simp only [BitVec.toNat_ofNat]
      rw [Nat.mod_eq_of_lt (by omega), Nat.mod_eq_of_lt (by omega), Nat.mod_eq_of_lt (by omega)]
    · rw [BitVec.le_def, BitVec.toNat_ofNat, BitVec.toNat_ofNat, Nat.mod_eq_of_lt (by omega),
        Nat.mod_eq_of_lt (by omega)]
      exact hq
  have toI : ∀ k, k < 2 ^ w → (BitVec.ofNat (w+1) k).toInt = (k : ℤ) := by
    intro k hk
    rw [BitVec.toInt_eq_toNat_of_msb, BitVec.toNat_ofNat, Nat.mod_eq_of_lt (by omega)]
    rw [BitVec.msb_eq_false_iff_two_mul_lt, BitVec.toNat_ofNat, Nat.mod_eq_of_lt (by omega)]
    omega
  simp only [Coo.newCoordBV, Coo.newCoord, t1, hdiv, hsub]
  rw [toI _ (by omega), toI _ (by omega)]

/-- **C33** with the word width the code selects, every shape whose dimensions fit in 32-bit signed integers is
handled exactly. -/
theorem C33_sparse_reshape_no_overflow (nr nc newNr newNc row col : ℕ)
    (h1 : nr ≤ 2 ^ 31 - 1) (h2 : nc ≤ 2 ^ 31 - 1) (hr : row < nr) (hc : col < nc)
    (hsize : nr * nc = newNr * newNc) :
    let w := Coo.reshapeWidth nr nc
    ((Coo.newCoordBV (BitVec.ofNat w nc) (BitVec.ofNat w newNc) (BitVec.ofNat w row) (BitVec.ofNat w col)).1.toInt,
     (Coo.newCoordBV (BitVec.ofNat w nc) (BitVec.ofNat w newNc) (BitVec.ofNat w row) (BitVec.ofNat w col)).2.toInt) =
    (((Coo.newCoord nc newNc row col).1 : ℤ), ((Coo.newCoord nc newNc row col).2 : ℤ)) := by
  intro w
  apply C33_words_exact w nr nc newNr newNc row col ?_ hr hc hsize ?_
  · simp only [w, Coo.reshapeWidth]; split <;> decide
  · simp only [w, Coo.reshapeWidth]
    split
    · have : nr * nc ≤ (2 ^ 31 - 1) * (2 ^ 31 - 1) := Nat.mul_le_mul h1 h2
      exact lt_of_le_of_lt this (by decide)
    · rename_i h
      have h31 : (2:ℕ) ^ (32 - 1) = 2 ^ 31 := rfl
      omega

/-- The 32-bit branch alone would not be enough: with `2^32` cells the 32-bit formulas give a wrong row. -/
example : (Coo.newCoordBV (BitVec.ofNat 32 65536) (BitVec.ofNat 32 1) (BitVec.ofNat 32 65535)
    (BitVec.ofNat 32 65535)).1.toInt ≠ ((Coo.newCoord 65536 1 65535 65535).1 : ℤ) := by decide

example : Coo.reshapeWidth 65536 65536 = 64 ∧ Coo.reshapeWidth 3 4 = 32 := by decide

end C33
end Dissect
