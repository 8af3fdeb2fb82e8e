import Verif.Lemmas.Matrix
import Verif.Lemmas.Sort
import Verif.Lemmas.Csr
import Mathlib.Tactic.NormNum
import Mathlib.Tactic.Linarith
import Mathlib.Tactic.FieldSimp

/-!
# Properties of the matrix layer: C06, C12, C30, C31, C34, C35, C36, C37
-/

namespace Dissect
open Finset

/-- Two matrix objects hold the same numbers: equal shape and equal entries. -/
def SameValues {K : Type} [Zero K] (s t : TMat K) : Prop :=
  s.nr = t.nr ∧ s.nc = t.nc ∧ ∀ i j, i < s.nr → j < s.nc → s.val.get i j = t.val.get i j

theorem SameValues.val_eq {K : Type} [Zero K] {s t : TMat K} (h : SameValues s t) : s.val = t.val :=
  Mat.ext' h.1 h.2.1 h.2.2

section C06
variable {K : Type} [Zero K]

/-- **C06** conversion to a class: the result has that class and the same numbers. -/
theorem C06_conversion_preserves_values (ty : MTy) (t u : TMat K) (h : t.toType ty = .ok u) :
    u.ty = ty ∧ SameValues u t := by
  obtain ⟨h1, h2⟩ := TMat.toType_eq_ok h
  refine ⟨h1, ?_, ?_, ?_⟩
  · simp [TMat.nr, h2]
  · simp [TMat.nc, h2]
  · intro i j _ _; rw [h2]

/-- **C06** conversion never fails on a non-empty matrix. -/
theorem C06_conversion_total (ty : MTy) (t : TMat K) (hr : 0 < t.nr) (hc : 0 < t.nc) :
    ∃ u, t.toType ty = .ok u :=
  ⟨_, TMat.toType_ok ty (fun _ => ⟨hr, hc⟩)⟩

theorem toTypeAll_eq_ok {ty : MTy} {l l' : List (TMat K)} (h : TMat.toTypeAll ty l = .ok l') :
    List.Forall₂ (fun t u => u.ty = ty ∧ u.val = t.val) l l' := by
  induction l generalizing l' with
  | nil => simp only [TMat.toTypeAll] at h; injection h with h; subst h; exact .nil
  | cons t ts ih =>
    simp only [TMat.toTypeAll] at h
    split at h
    · cases h
    · rename_i u hu
      split at h
      · cases h
      · rename_i us hus
        injection h with h
        subst h
        exact .cons (TMat.toType_eq_ok hu) (ih hus)

/-- **C06** `resolve_type_conflict`: position by position the same numbers, and a single class. -/
theorem C06_resolve_type_conflict (l l' : List (TMat K)) (ty : Option MTy)
    (h : TMat.resolveTypeConflict l ty = .ok l') :
    List.Forall₂ SameValues l' l ∧ ∀ s ∈ l', ∀ t ∈ l', s.ty = t.ty := by
  have refl : ∀ l : List (TMat K), List.Forall₂ SameValues l l := fun l =>
    List.forall₂_same.2 (fun t _ => ⟨rfl, rfl, fun _ _ _ _ => rfl⟩)
  unfold TMat.resolveTypeConflict at h
  split at h
  · split at h
    · rename_i hconf _ ty'
      have hf := toTypeAll_eq_ok h
      clear hconf
      refine ⟨?_, ?_⟩
      · clear h
        induction hf with
        | nil => exact .nil
        | cons hx _ ih =>
          refine .cons ?_ ih
          refine ⟨?_, ?_, ?_⟩
          · simp [TMat.nr, hx.2]
          · simp [TMat.nc, hx.2]
          · intro i j _ _; rw [hx.2]
      · have key : ∀ s ∈ l', s.ty = ty' := by
          clear h
          induction hf with
          | nil => simp
          | cons hx _ ih =>
            intro s hs
            rcases List.mem_cons.1 hs with rfl | hs
            · exact hx.1
            · exact ih s hs
        intro s hs t ht
        rw [key s hs, key t ht]
    · cases h
  · rename_i hc
    injection h with h
    subst h
    refine ⟨refl l, ?_⟩
    cases l with
    | nil => simp
    | cons a as =>
      simp only [TMat.typeConflict, Bool.not_eq_true, List.any_eq_false, decide_eq_true_eq, not_not] at hc
      intro s hs t ht
      rw [hc s hs, hc t ht]

/-- **C06** without a conflict `resolve_type_conflict` returns the very same objects. -/
theorem C06_no_conflict_no_change (l : List (TMat K)) (ty : Option MTy)
    (h : ∀ s ∈ l, ∀ t ∈ l, s.ty = t.ty) : TMat.resolveTypeConflict l ty = .ok l := by
  unfold TMat.resolveTypeConflict
  have : TMat.typeConflict l = false := by
    cases l with
    | nil => rfl
    | cons a as =>
      simp only [TMat.typeConflict, List.any_eq_false, decide_eq_true_eq, not_not]
      intro s hs
      exact h s hs a (List.mem_cons_self ..)
  simp [this]

/-- **C06** `to_compatible_matrix_types` keeps the first argument and converts the second to its class. -/
theorem C06_to_compatible (s t s' t' : TMat K) (h : s.toCompatible t = .ok (s', t')) :
    s' = s ∧ t'.ty = s.ty ∧ SameValues t' t := by
  unfold TMat.toCompatible at h
  split at h
  · cases h
  · rename_i u hu
    injection h with h
    injection h with h1 h2
    subst h1 h2
    exact ⟨rfl, C06_conversion_preserves_values s.ty t u hu⟩

/-- non-vacuity: a mixed pair is really converted. -/
example : TMat.resolveTypeConflict
    [(⟨.dense, Mat.of 1 2 (fun _ j => (j : ℤ))⟩ : TMat ℤ), ⟨.sparse, Mat.of 2 2 (fun i j => (i + j : ℤ))⟩]
    (some .dense) =
    .ok [⟨.dense, Mat.of 1 2 (fun _ j => (j : ℤ))⟩, ⟨.dense, Mat.of 2 2 (fun i j => (i + j : ℤ))⟩] := rfl

end C06

section C12
variable {K : Type} [Zero K] [LinearOrder K]

/-- **C12** `sorted_permutation`: all indices, each once, by non-increasing key, equal keys in index order. -/
theorem C12_sorted_permutation (norms : Arr K) :
    let p := sortedPermutation norms
    let key := fun i => norms.data.getD i 0
    p.Perm (List.range norms.data.length) ∧
    p.Pairwise (fun a b => key b < key a ∨ (key b = key a ∧ a < b)) :=
  ⟨sortedDesc_perm _ _, sortedDesc_pairwise _ _⟩

/-- non-vacuity: a list with a tie. -/
example : ([1, 0, 2] : List ℕ).Perm (List.range 3) ∧
    ([1, 0, 2] : List ℕ).Pairwise (fun a b =>
      ([4, 7, 4] : List ℤ).getD b 0 < ([4, 7, 4] : List ℤ).getD a 0 ∨
      (([4, 7, 4] : List ℤ).getD b 0 = ([4, 7, 4] : List ℤ).getD a 0 ∧ a < b)) := by decide

end C12

section C30
variable {K : Type} [AddCommMonoid K]

/-- **C30** row access on the stored arrays: `m[i]` is a well formed `1 × n` matrix with the entries of row `i`. -/
theorem C30_sparse_row_access (c : Csr K) (h : c.WF) (i : ℕ) (hi : i < c.nr) :
    ∃ r, c.getRow i = .ok r ∧ r.WF ∧ r.nr = 1 ∧ r.nc = c.nc ∧
      ∀ j, j < c.nc → r.toMat.get 0 j = c.toMat.get i j := by
  have hlen := h.len_ptr
  have h1 : c.indptr[i]? = some (c.ptr i) := by
    rw [Csr.ptr, List.getD_eq_getElem?_getD, List.getElem?_eq_getElem (by omega)]; rfl
  have h2 : c.indptr[i + 1]? = some (c.ptr (i + 1)) := by
    rw [Csr.ptr, List.getD_eq_getElem?_getD, List.getElem?_eq_getElem (by omega)]; rfl
  have hst := Csr.stored_length h
  have hb : c.ptr (i + 1) ≤ c.data.length := Csr.ptr_le_len h (by omega)
  have hm := h.mono i hi
  let r : Csr K := { nr := 1, nc := c.nc,
                     data := (c.data.drop (c.ptr i)).take (c.ptr (i + 1) - c.ptr i),
                     indices := (c.indices.drop (c.ptr i)).take (c.ptr (i + 1) - c.ptr i),
                     indptr := [0, c.ptr (i + 1) - c.ptr i] }
  have hstored : r.stored = c.rowList i := by
    simp only [r, Csr.stored, Csr.rowList, List.zip, List.take_zipWith, List.drop_zipWith]
  have hlenrow : (c.rowList i).length = c.ptr (i + 1) - c.ptr i := by
    simp only [Csr.rowList, List.length_take, List.length_drop, hst]; omega
  have hrow : r.rowList 0 = c.rowList i := by
    unfold Csr.rowList
    rw [show r.stored = c.rowList i from hstored]
    have e0 : r.ptr 0 = 0 := rfl
    have e1 : r.ptr (0 + 1) = c.ptr (i + 1) - c.ptr i := rfl
    rw [e0, e1, List.drop_zero, Nat.sub_zero, ← hlenrow, List.take_length, hlenrow]
    rfl
  have hwf : r.WF := by
    refine ⟨rfl, rfl, ?_, ?_, ?_, ?_, ?_⟩
    · intro k hk
      have : k = 0 := by simp only [r] at hk; omega
      subst this
      exact Nat.zero_le _
    · change c.ptr (i + 1) - c.ptr i = _
      simp only [r, List.length_take, List.length_drop]; omega
    · simp only [r, List.length_take, List.length_drop, h.len_idx]
    · intro j hj
      exact h.idx_lt j (List.mem_of_mem_drop (List.mem_of_mem_take hj))
    · intro k hk
      have : k = 0 := by simp only [r] at hk; omega
      subst this
      rw [hrow]
      exact h.nodup i hi
  refine ⟨r, ?_, hwf, rfl, rfl, ?_⟩
  · simp only [Csr.getRow, h1, h2]; rfl
  · intro j hj
    rw [Csr.toMat_get (c := r) (by simp [r]) hj, Csr.toMat_get hi hj, hrow]

omit [AddCommMonoid K] in
/-- **C30** a row number past the end raises `IndexError`. -/
theorem C30_sparse_row_out_of_range (c : Csr K) (h : c.WF) (i : ℕ) (hi : c.nr ≤ i) :
    c.getRow i = .error .indexError := by
  unfold Csr.getRow
  have : c.indptr[i + 1]? = none := List.getElem?_eq_none (by have := h.len_ptr; omega)
  rw [this]
  cases c.indptr[i]? <;> rfl

/-- A concrete matrix with an empty row: `[[0,5,0],[0,0,0],[7,0,-2]]`. -/
def exCsr : Csr ℤ := ⟨3, 3, [5, 7, -2], [1, 0, 2], [0, 1, 1, 3]⟩

theorem exCsr_wf : exCsr.WF where
  len_ptr := rfl
  ptr_zero := rfl
  mono := by decide
  ptr_last := rfl
  len_idx := rfl
  idx_lt := by decide
  nodup := by decide

example : (exCsr.toMat.get 0 1, exCsr.toMat.get 1 1, exCsr.toMat.get 2 0, exCsr.toMat.get 2 2) =
    (5, 0, 7, -2) := by decide

end C30

section C31
variable {K : Type} [Field K] [LinearOrder K]

/-- **C31** `get_non_negative` on the stored entries is the dense `get_non_negative`. -/
theorem C31_get_non_negative (c : Csr K) (h : c.WF) (hr : 0 < c.nr) (hc : 0 < c.nc) :
    TMat.getNonNegative ⟨.dense, c.toMat⟩ = .ok ⟨.dense, c.getNonNegative.toMat⟩ ∧ c.getNonNegative.WF := by
  refine ⟨?_, (h.mapData _).eliminateZeros⟩
  unfold TMat.getNonNegative Csr.getNonNegative
  rw [Csr.toMat_eliminateZeros, Csr.toMat_mapData h (by simp)]
  exact TMat.wrap_ok_pos hr hc

/-- **C31** `to_non_negative` (clipping the stored entries) is the dense `to_non_negative`. -/
theorem C31_to_non_negative (c : Csr K) (h : c.WF) :
    (TMat.toNonNegative ⟨.dense, c.toMat⟩).val = c.toNonNegative.toMat ∧ c.toNonNegative.WF := by
  refine ⟨?_, (h.mapData _).eliminateZeros⟩
  unfold TMat.toNonNegative Csr.toNonNegative
  rw [Csr.toMat_eliminateZeros, Csr.toMat_mapData h (by simp)]
  have : (fun x : K => if x < 0 then 0 else x) = (fun x : K => if 0 < x then x else 0) := by
    funext x
    rcases lt_trichotomy x 0 with hx | hx | hx
    · rw [if_pos hx, if_neg (not_lt.2 hx.le)]
    · subst hx; simp
    · rw [if_neg (not_lt.2 hx.le), if_pos hx]
  rw [this]

/-- **C31** `to_ones`. -/
theorem C31_to_ones (c : Csr K) (h : c.WF) :
    (TMat.toOnes ⟨.dense, c.toMat⟩).val = c.toOnes.toMat ∧ c.toOnes.WF := by
  refine ⟨?_, (h.mapData _).eliminateZeros⟩
  unfold TMat.toOnes Csr.toOnes
  rw [Csr.toMat_eliminateZeros, Csr.toMat_mapData h (by simp)]

/-- **C31** `remove_small_values`, for every threshold. -/
theorem C31_remove_small_values (c : Csr K) (h : c.WF) (hr : 0 < c.nr) (hc : 0 < c.nc) (eps : K) :
    TMat.removeSmallValues ⟨.dense, c.toMat⟩ eps = .ok ⟨.dense, (c.removeSmallValues eps).toMat⟩ ∧
      (c.removeSmallValues eps).WF := by
  refine ⟨?_, (h.mapData _).eliminateZeros⟩
  unfold TMat.removeSmallValues Csr.removeSmallValues
  rw [Csr.toMat_eliminateZeros, Csr.toMat_mapData h (by simp)]
  exact TMat.wrap_ok_pos hr hc

theorem assertPositive_ok_iff (t : TMat K) :
    t.assertPositive = .ok () ↔ ∀ i j, i < t.nr → j < t.nc → 0 ≤ t.val.get i j := by
  unfold TMat.assertPositive
  split
  · rename_i h
    simp only [List.all_eq_true, List.mem_range, decide_eq_true_eq] at h
    simp only [true_iff]
    intro i j hi hj; exact h i hi j hj
  · rename_i h
    simp only [List.all_eq_true, List.mem_range, decide_eq_true_eq] at h
    simp only [reduceCtorEq, false_iff]
    intro hc; exact h (fun i hi j hj => hc i j hi hj)

theorem assertPositive_cases (t : TMat K) :
    t.assertPositive = .ok () ∨ t.assertPositive = .error .valueError := by
  unfold TMat.assertPositive; split <;> simp

/-- **C31** `assert_positive` on the stored entries accepts and rejects exactly what the dense one does. -/
theorem C31_assert_positive (c : Csr K) (h : c.WF) :
    c.assertPositive = TMat.assertPositive ⟨.dense, c.toMat⟩ := by
  have key : c.assertPositive = .ok () ↔ TMat.assertPositive ⟨.dense, c.toMat⟩ = .ok () := by
    rw [assertPositive_ok_iff]
    unfold Csr.assertPositive
    constructor
    · intro hh i j _ _
      split at hh
      · rename_i hall
        simp only [List.all_eq_true, decide_eq_true_eq] at hall
        rcases Csr.cell_mem_data h i j with h0 | h1
        · simp only [h0, le_refl]
        · exact hall _ h1
      · cases hh
    · intro hh
      rw [if_pos]
      simp only [List.all_eq_true, decide_eq_true_eq]
      intro x hx
      obtain ⟨i, j, hi, hj, rfl⟩ := Csr.data_mem_cell h hx
      exact hh i j hi hj
  rcases assertPositive_cases (⟨.dense, c.toMat⟩ : TMat K) with h1 | h1
  · rw [h1, key, h1]
  · rw [h1]
    unfold Csr.assertPositive at key ⊢
    split
    · rename_i hh
      rw [if_pos hh] at key
      rw [h1] at key
      simp at key
    · rfl

/-- **C31** `plog` on the stored entries is the dense `plog`. -/
theorem C31_plog (c : Csr ℝ) (h : c.WF) :
    (TMat.plog ⟨.dense, c.toMat⟩).val = c.plog.toMat ∧ c.plog.WF := by
  refine ⟨?_, ((h.mapData _).mapData _).eliminateZeros⟩
  have hcomb : c.plog = (c.mapData (fun x => Real.log (if x ≤ 1 then 1 else x))).eliminateZeros := by
    unfold Csr.plog Csr.mapData
    simp [List.map_map, Function.comp_def]
  rw [hcomb, Csr.toMat_eliminateZeros, Csr.toMat_mapData h (by simp)]
  unfold TMat.plog
  refine Mat.ext' rfl rfl (fun i j hi hj => ?_)
  have hi' : i < c.toMat.nr := hi
  have hj' : j < c.toMat.nc := hj
  simp only [Mat.map_get_lt _ _ hi' hj']
  generalize c.toMat.get i j = x
  rcases lt_trichotomy x 1 with hx | hx | hx
  · rw [if_pos hx, if_pos hx.le]
  · subst hx; simp
  · rw [if_neg (not_lt.2 hx.le), if_neg (not_le.2 hx)]

/-- **C31** `norm` over the stored entries is the norm of the matrix. -/
theorem C31_norm (c : Csr ℝ) (h : c.WF) : c.norm = TMat.norm ⟨.dense, c.toMat⟩ := by
  unfold Csr.norm TMat.norm
  rw [Csr.sum_data h (f := fun x : ℝ => x ^ 2) (by simp)]
  rfl

/-- The branch of the abstract model for sparse matrices is what the array code computes (used by every later
theorem about sparse spaces). -/
theorem C31_sparse_branch (c : Csr ℝ) (h : c.WF) : (TMat.plog ⟨.sparse, c.toMat⟩).val = c.plog.toMat := by
  rw [← (C31_plog c h).1]
  unfold TMat.plog
  refine Mat.ext' rfl rfl (fun i j hi hj => ?_)
  have hi' : i < c.toMat.nr := hi
  have hj' : j < c.toMat.nc := hj
  simp only [Mat.map_get_lt _ _ hi' hj']
  generalize c.toMat.get i j = x
  by_cases h0 : x = 0
  · subst h0; simp
  · rw [if_neg h0]
    rcases lt_trichotomy x 1 with hx | hx | hx
    · rw [if_pos hx, if_pos hx.le]
    · subst hx; simp
    · rw [if_neg (not_lt.2 hx.le), if_neg (not_le.2 hx)]

/-- non-vacuity of the hypothesis `WF` used in this section: see `exCsr_wf`. -/
example : exCsr.WF ∧ 0 < exCsr.nr ∧ 0 < exCsr.nc := ⟨exCsr_wf, by decide, by decide⟩

end C31

section C34
variable {K : Type} [Field K] [LinearOrder K]

/-- Number of cells whose value satisfies `p`. -/
def cellCount (A : Mat K) (p : K → Prop) [DecidablePred p] : ℕ :=
  ((range A.nr ×ˢ range A.nc).filter (fun ij => p (A.get ij.1 ij.2))).card

omit [LinearOrder K] in
theorem countEntries_eq (A : Mat K) (p : K → Prop) [DecidablePred p] :
    TMat.countEntries A (fun x => decide (p x)) = cellCount A p := by
  unfold TMat.countEntries cellCount
  rw [Finset.card_filter, Finset.sum_product]
  simp only [decide_eq_true_eq]

omit [Field K] [LinearOrder K] in
theorem sum_map_ite_length (l : List K) (p : K → Bool) :
    (l.map (fun x => if p x = true then 1 else 0)).sum = (l.filter p).length := by
  induction l with
  | nil => rfl
  | cons a l ih => by_cases h : p a = true <;> simp [List.filter_cons, h, ih]; omega

/-- What the docstring promises: strictly more than half of the non-zero cells are positive. -/
def MostlyPositive (A : Mat K) : Prop :=
  cellCount A (fun x => x ≠ 0) < 2 * cellCount A (fun x => 0 < x)

/-- **C34** holds for a sparse matrix without stored zeros, on its arrays. -/
theorem C34_sparse_is_mostly_positive_partial (c : Csr K) (h : c.WF) (hz : ∀ x ∈ c.data, x ≠ 0) :
    c.isMostlyPositive = true ↔ MostlyPositive c.toMat := by
  have hpos : (c.data.filter (fun x => decide (x > 0))).length = cellCount c.toMat (fun x => 0 < x) := by
    rw [← countEntries_eq]
    unfold TMat.countEntries
    have := Csr.sum_data h (f := fun x : K => if decide (0 < x) = true then 1 else 0) (M := ℕ) (by simp)
    change _ = ∑ i ∈ range c.nr, ∑ j ∈ range c.nc, _
    rw [← this, sum_map_ite_length]
  have hnz : c.data.length = cellCount c.toMat (fun x => x ≠ 0) := by
    rw [← countEntries_eq]
    unfold TMat.countEntries
    have := Csr.sum_data h (f := fun x : K => if decide (x ≠ 0) = true then 1 else 0) (M := ℕ) (by simp)
    change _ = ∑ i ∈ range c.nr, ∑ j ∈ range c.nc, _
    rw [← this, sum_map_ite_length, List.filter_eq_self.2]
    intro x hx
    simpa using hz x hx
  unfold Csr.isMostlyPositive MostlyPositive
  rw [decide_eq_true_eq, hpos, hnz]
  omega

theorem cellCount_le (A : Mat K) (p : K → Prop) [DecidablePred p] : cellCount A p ≤ A.nr * A.nc := by
  unfold cellCount
  refine le_trans (Finset.card_filter_le _ _) ?_
  simp

/-- **C34** dense: a `True` answer is always right. -/
theorem C34_dense_true_is_right_partial (A : Mat K)
    (h : TMat.isMostlyPositive ⟨.dense, A⟩ = true) : MostlyPositive A := by
  have hp : TMat.countEntries A (fun x => decide (0 < x)) = cellCount A (fun x => 0 < x) := countEntries_eq A _
  unfold TMat.isMostlyPositive at h
  simp only [decide_eq_true_eq, hp, TMat.nr, TMat.nc] at h
  have := cellCount_le A (fun x => x ≠ 0)
  unfold MostlyPositive
  omega

/-- **C34** dense: the answer is right on matrices without zero cells. -/
theorem C34_dense_no_zeros_partial (A : Mat K) (hz : ∀ i j, i < A.nr → j < A.nc → A.get i j ≠ 0) :
    TMat.isMostlyPositive ⟨.dense, A⟩ = true ↔ MostlyPositive A := by
  have hcard : cellCount A (fun x => x ≠ 0) = A.nr * A.nc := by
    unfold cellCount
    rw [Finset.filter_true_of_mem]
    · simp
    · intro ij hij
      rw [Finset.mem_product, Finset.mem_range, Finset.mem_range] at hij
      exact hz _ _ hij.1 hij.2
  have hp : TMat.countEntries A (fun x => decide (0 < x)) = cellCount A (fun x => 0 < x) := countEntries_eq A _
  unfold TMat.isMostlyPositive MostlyPositive
  simp only [decide_eq_true_eq, hp, TMat.nr, TMat.nc]
  rw [hcard]
  omega

/-- **C34 is false of the dense implementation**: in `[[1, 0, 0]]` the only non-zero entry is positive, but the
dense `is_mostly_positive` compares with half of all entries and answers `False`; the sparse one answers `True`. -/
theorem C34_dense_refuted : ∃ A : Mat ℚ, MostlyPositive A ∧
    TMat.isMostlyPositive ⟨.dense, A⟩ = false ∧ TMat.isMostlyPositive ⟨.sparse, A⟩ = true := by
  have c0 : cellCount (Mat.of 1 3 (fun _ j => if j = 0 then (1 : ℚ) else 0)) (fun x => 0 < x) = 1 := by
    rw [← countEntries_eq]
    simp only [TMat.countEntries, Finset.sum_range_succ, Finset.sum_range_zero, Mat.of_nr, Mat.of_nc, Mat.of_get]
    norm_num
  have c1 : cellCount (Mat.of 1 3 (fun _ j => if j = 0 then (1 : ℚ) else 0)) (fun x => x ≠ 0) = 1 := by
    rw [← countEntries_eq]
    simp only [TMat.countEntries, Finset.sum_range_succ, Finset.sum_range_zero, Mat.of_nr, Mat.of_nc, Mat.of_get]
    norm_num
  refine ⟨Mat.of 1 3 (fun _ j => if j = 0 then 1 else 0), ?_, ?_, ?_⟩
  · unfold MostlyPositive; rw [c0, c1]; norm_num
  · unfold TMat.isMostlyPositive
    simp only [countEntries_eq, c0, TMat.nr, TMat.nc, Mat.of_nr, Mat.of_nc]
    decide
  · unfold TMat.isMostlyPositive
    simp only [countEntries_eq, c0, c1]
    decide

end C34

section C35

/-- The two matrices are equal up to numpy's absolute tolerance `1e-8`. -/
def CloseAbs (A B : Mat ℝ) : Prop :=
  ∀ i j, i < A.nr → j < A.nc → |A.get i j - B.get i j| ≤ 1/100000000

theorem allClose_sparse_iff (A B : Mat ℝ) :
    TMat.allClose ⟨.sparse, A⟩ ⟨.sparse, B⟩ = true ↔ CloseAbs A B := by
  unfold TMat.allClose CloseAbs
  simp only [TMat.nr, TMat.nc, List.all_eq_true, List.mem_range, decide_eq_true_eq]
  exact ⟨fun h i j hi hj => h i hi j hj, fun h i hi j hj => h i j hi hj⟩

theorem allClose_dense_iff (A B : Mat ℝ) :
    TMat.allClose ⟨.dense, A⟩ ⟨.dense, B⟩ = true ↔
      ∀ i j, i < A.nr → j < A.nc → |A.get i j - B.get i j| ≤ 1/100000000 + 1/100000 * |B.get i j| := by
  unfold TMat.allClose
  simp only [TMat.nr, TMat.nc, List.all_eq_true, List.mem_range, decide_eq_true_eq]
  exact ⟨fun h i j hi hj => h i hi j hj, fun h i hi j hj => h i j hi hj⟩

/-- **C35** reflexivity, for both classes. -/
theorem C35_all_close_refl_partial (ty : MTy) (A : Mat ℝ) : TMat.allClose ⟨ty, A⟩ ⟨ty, A⟩ = true := by
  cases ty with
  | dense =>
    rw [allClose_dense_iff]
    intro i j _ _
    rw [sub_self, abs_zero]
    positivity
  | sparse =>
    rw [allClose_sparse_iff]
    intro i j _ _
    rw [sub_self, abs_zero]
    norm_num

/-- **C35** the sparse test does not depend on the order of its arguments. -/
theorem C35_sparse_symmetric_partial (A B : Mat ℝ) (hr : A.nr = B.nr) (hc : A.nc = B.nc) :
    TMat.allClose ⟨.sparse, A⟩ ⟨.sparse, B⟩ = TMat.allClose ⟨.sparse, B⟩ ⟨.sparse, A⟩ := by
  rw [Bool.eq_iff_iff, allClose_sparse_iff, allClose_sparse_iff]
  unfold CloseAbs
  rw [hr, hc]
  simp only [abs_sub_comm]

/-- **C35** a sparse `True` implies a dense `True` (the converse fails, below). -/
theorem C35_sparse_implies_dense_partial (A B : Mat ℝ)
    (h : TMat.allClose ⟨.sparse, A⟩ ⟨.sparse, B⟩ = true) : TMat.allClose ⟨.dense, A⟩ ⟨.dense, B⟩ = true := by
  rw [allClose_sparse_iff] at h
  rw [allClose_dense_iff]
  intro i j hi hj
  have h1 := h i j hi hj
  have h2 := abs_nonneg (B.get i j)
  linarith

/-- **C35 is false**: the dense test depends on the order of its arguments, and dense and sparse disagree. -/
theorem C35_refuted :
    (∃ A B : Mat ℝ, A.nr = B.nr ∧ A.nc = B.nc ∧
      TMat.allClose ⟨.dense, A⟩ ⟨.dense, B⟩ = true ∧ TMat.allClose ⟨.dense, B⟩ ⟨.dense, A⟩ = false) ∧
    (∃ A B : Mat ℝ, A.nr = B.nr ∧ A.nc = B.nc ∧
      TMat.allClose ⟨.dense, A⟩ ⟨.dense, B⟩ = true ∧ TMat.allClose ⟨.sparse, A⟩ ⟨.sparse, B⟩ = false) := by
  have hA : ∀ x : ℝ, (Mat.const 1 1 x).get 0 0 = x := fun x => by simp [Mat.const, Mat.of_get]
  have hn : ∀ x : ℝ, (Mat.const 1 1 x).nr = 1 ∧ (Mat.const 1 1 x).nc = 1 := fun x => ⟨rfl, rfl⟩
  have hd : ∀ x y : ℝ, TMat.allClose ⟨.dense, Mat.const 1 1 x⟩ ⟨.dense, Mat.const 1 1 y⟩ = true ↔
      |x - y| ≤ 1/100000000 + 1/100000 * |y| := by
    intro x y
    rw [allClose_dense_iff]
    constructor
    · intro h; have := h 0 0 (by simp [(hn x).1]) (by simp [(hn x).2]); rwa [hA, hA] at this
    · intro h i j hi hj
      have hi' : i = 0 := by simp only [(hn x).1] at hi; omega
      have hj' : j = 0 := by simp only [(hn x).2] at hj; omega
      subst hi' hj'
      rwa [hA, hA]
  have hs : ∀ x y : ℝ, TMat.allClose ⟨.sparse, Mat.const 1 1 x⟩ ⟨.sparse, Mat.const 1 1 y⟩ = true ↔
      |x - y| ≤ 1/100000000 := by
    intro x y
    rw [allClose_sparse_iff]
    constructor
    · intro h; have := h 0 0 (by simp [(hn x).1]) (by simp [(hn x).2]); rwa [hA, hA] at this
    · intro h i j hi hj
      have hi' : i = 0 := by simp only [(hn x).1] at hi; omega
      have hj' : j = 0 := by simp only [(hn x).2] at hj; omega
      subst hi' hj'
      rwa [hA, hA]
  refine ⟨⟨Mat.const 1 1 (1 - 1001/100000000), Mat.const 1 1 1, rfl, rfl, ?_, ?_⟩,
    ⟨Mat.const 1 1 (1 + 1/1000000), Mat.const 1 1 1, rfl, rfl, ?_, ?_⟩⟩
  · rw [hd]; rw [abs_le]; norm_num
  · rw [← Bool.not_eq_true, hd, abs_le, abs_of_nonneg (by norm_num : (0:ℝ) ≤ 1 - 1001/100000000)]; norm_num
  · rw [hd]; rw [abs_le]; norm_num
  · rw [← Bool.not_eq_true, hs, abs_le]; norm_num

end C35

section C36
variable {K : Type} [Field K]

/-- **C36** mixing a dense and a sparse operand raises `TypeError`, for every operation. -/
theorem C36_mixed_types (s t : TMat K) (h : s.ty ≠ t.ty) :
    s.add t = .error .typeError ∧ s.sub t = .error .typeError ∧ s.mul t = .error .typeError ∧
    s.multiply t = .error .typeError ∧ s.vstack t = .error .typeError ∧ s.hstack t = .error .typeError := by
  simp [TMat.add, TMat.sub, TMat.elemOp, TMat.mul, TMat.multiply, TMat.vstack, TMat.hstack, h]

/-- An operation on `s` and `t` yields a matrix of the class of `s` with the given shape and entries. -/
def Yields (r : Py (TMat K)) (ty : MTy) (m n : ℕ) (f : ℕ → ℕ → K) : Prop :=
  ∃ u, r = .ok u ∧ u.ty = ty ∧ u.nr = m ∧ u.nc = n ∧ ∀ i j, i < m → j < n → u.val.get i j = f i j

theorem yields_wrap {ty : MTy} {A : Mat K} {f : ℕ → ℕ → K} (h1 : 0 < A.nr) (h2 : 0 < A.nc)
    (h : ∀ i j, i < A.nr → j < A.nc → A.get i j = f i j) : Yields (TMat.wrap ty A) ty A.nr A.nc f :=
  ⟨_, TMat.wrap_ok_pos h1 h2, rfl, rfl, rfl, h⟩

/-- **C36** sums and differences of matrices of one class and shape are the entry-wise ones. -/
theorem C36_add_sub (s t : TMat K) (hty : s.ty = t.ty) (hr : s.nr = t.nr) (hc : s.nc = t.nc)
    (h1 : 0 < s.nr) (h2 : 0 < s.nc) :
    Yields (s.add t) s.ty s.nr s.nc (fun i j => s.val.get i j + t.val.get i j) ∧
    Yields (s.sub t) s.ty s.nr s.nc (fun i j => s.val.get i j - t.val.get i j) := by
  rw [TMat.add_same hty hr hc, TMat.sub_same hty hr hc]
  exact ⟨yields_wrap h1 h2 (fun i j hi hj => by rw [Mat.add_get hr hc]),
    yields_wrap h1 h2 (fun i j hi hj => by rw [Mat.sub_get hr hc])⟩

/-- **C36** sparse `+`/`-` refuse different shapes (dense `+`/`-` broadcast a dimension of size one). -/
theorem C36_sparse_add_shape (s t : TMat K) (hs : s.ty = .sparse) (ht : t.ty = .sparse)
    (h : ¬ (s.nr = t.nr ∧ s.nc = t.nc)) :
    s.add t = .error .valueError ∧ s.sub t = .error .valueError := by
  simp only [TMat.add, TMat.sub, TMat.elemOp, hs, ht, if_true, h, if_false, and_self]

/-- **C36** dense `+`/`-` raise `ValueError` when a dimension differs and neither side has size one there. -/
theorem C36_dense_add_shape (s t : TMat K) (hs : s.ty = .dense) (ht : t.ty = .dense)
    (h : (s.nr ≠ t.nr ∧ s.nr ≠ 1 ∧ t.nr ≠ 1) ∨ (s.nc ≠ t.nc ∧ s.nc ≠ 1 ∧ t.nc ≠ 1)) :
    s.add t = .error .valueError ∧ s.sub t = .error .valueError := by
  have key : ∀ f : K → K → K, TMat.bcastOp f s.val t.val = none := by
    intro f
    unfold TMat.bcastOp
    have hh : TMat.bcast s.val.nr t.val.nr = none ∨ TMat.bcast s.val.nc t.val.nc = none := by
      rcases h with ⟨a, b, c⟩ | ⟨a, b, c⟩
      · left
        unfold TMat.bcast
        simp only [TMat.nr] at a b c
        simp [a, b, c]
      · right
        unfold TMat.bcast
        simp only [TMat.nc] at a b c
        simp [a, b, c]
    rcases hh with hh | hh
    · simp [hh]
    · rw [hh]
      cases TMat.bcast s.val.nr t.val.nr <;> rfl
  simp [TMat.add, TMat.sub, TMat.elemOp, hs, ht, key]

/-- **C36** matrix product. -/
theorem C36_mul (s t : TMat K) (hty : s.ty = t.ty) :
    (s.nc = t.nr → 0 < s.nr → 0 < t.nc →
      Yields (s.mul t) s.ty s.nr t.nc (fun i j => ∑ k ∈ range s.nc, s.val.get i k * t.val.get k j)) ∧
    (s.nc ≠ t.nr → s.mul t = .error .valueError) := by
  constructor
  · intro h h1 h2
    unfold TMat.mul
    rw [if_pos hty, if_pos h]
    exact yields_wrap (A := s.val.mul t.val) h1 h2 (fun i j _ _ => rfl)
  · intro h
    unfold TMat.mul
    rw [if_pos hty, if_neg h]

/-- **C36** component-wise product. -/
theorem C36_multiply (s t : TMat K) (hty : s.ty = t.ty) :
    (s.nr = t.nr → s.nc = t.nc → 0 < s.nr → 0 < s.nc →
      Yields (s.multiply t) s.ty s.nr s.nc (fun i j => s.val.get i j * t.val.get i j)) ∧
    (¬ (s.nr = t.nr ∧ s.nc = t.nc) → s.multiply t = .error .valueError) := by
  constructor
  · intro hr hc h1 h2
    unfold TMat.multiply
    rw [if_pos hty, if_pos ⟨hr, hc⟩]
    exact yields_wrap (A := s.val.had t.val) h1 h2 (fun i j _ _ => rfl)
  · intro h
    unfold TMat.multiply
    rw [if_pos hty, if_neg h]

/-- **C36** vertical and horizontal stacking. -/
theorem C36_stack (s t : TMat K) (hty : s.ty = t.ty) :
    (s.nc = t.nc → 0 < s.nr → 0 < s.nc →
      Yields (s.vstack t) s.ty (s.nr + t.nr) s.nc
        (fun i j => if i < s.nr then s.val.get i j else t.val.get (i - s.nr) j)) ∧
    (s.nc ≠ t.nc → s.vstack t = .error .valueError) ∧
    (s.nr = t.nr → 0 < s.nr → 0 < s.nc →
      Yields (s.hstack t) s.ty s.nr (s.nc + t.nc)
        (fun i j => if j < s.nc then s.val.get i j else t.val.get i (j - s.nc))) ∧
    (s.nr ≠ t.nr → s.hstack t = .error .valueError) := by
  refine ⟨?_, ?_, ?_, ?_⟩
  · intro h h1 h2
    unfold TMat.vstack
    rw [if_pos hty, if_pos h]
    exact yields_wrap (A := s.val.vstack t.val) (by simp only [Mat.vstack_nr]; exact Nat.add_pos_left h1 _) h2
      (fun i j _ _ => Mat.vstack_get h i j)
  · intro h
    unfold TMat.vstack
    rw [if_pos hty, if_neg h]
  · intro h h1 h2
    unfold TMat.hstack
    rw [if_pos hty, if_pos h]
    exact yields_wrap (A := s.val.hstack t.val) h1 (by simp only [Mat.hstack_nc]; exact Nat.add_pos_left h2 _)
      (fun i j _ _ => Mat.hstack_get h i j)
  · intro h
    unfold TMat.hstack
    rw [if_pos hty, if_neg h]

/-- **C36** multiplication and division by a number; division by `0` raises `ZeroDivisionError`. -/
theorem C36_scalar [DecidableEq K] (t : TMat K) (c : K) (h1 : 0 < t.nr) (h2 : 0 < t.nc) :
    Yields (t.mulScalar c) t.ty t.nr t.nc (fun i j => c * t.val.get i j) ∧
    (c ≠ 0 → Yields (t.divScalar c) t.ty t.nr t.nc (fun i j => t.val.get i j / c)) ∧
    t.divScalar 0 = .error .zeroDivisionError := by
  refine ⟨yields_wrap (A := t.val.smul c) h1 h2 (fun _ _ _ _ => rfl), fun hc => ?_, ?_⟩
  · unfold TMat.divScalar
    rw [if_neg hc]
    exact yields_wrap (A := t.val.smul c⁻¹) h1 h2 (fun i j _ _ => by
      rw [Mat.smul_get, div_eq_mul_inv, mul_comm])
  · simp [TMat.divScalar]

/-- non-vacuity: two concrete 2×2 matrices of one class meet the hypotheses. -/
example : ∃ s t : TMat ℚ, s.ty = t.ty ∧ s.nr = t.nr ∧ s.nc = t.nc ∧ s.nc = t.nr ∧ 0 < s.nr ∧ 0 < s.nc ∧
    s.val.get 0 1 ≠ t.val.get 0 1 :=
  ⟨⟨.dense, Mat.of 2 2 (fun i j => i + j)⟩, ⟨.dense, Mat.of 2 2 (fun i j => i * j)⟩,
    rfl, rfl, rfl, rfl, by decide, by decide, by simp [Mat.of_get]⟩

end C36

section C37
variable {K : Type} [Field K]

/-- **C37** `scale_rows`: row `i` is multiplied by the `i`-th value (arrays of shape `(n,1)` or `(n,)`). -/
theorem C37_scale_rows (t : TMat K) (a : Arr K) (h1 : 0 < t.nr) (h2 : 0 < t.nc)
    (hs : a.shape = [t.nr, 1] ∨ a.shape = [t.nr]) (hl : a.data.length = t.nr) :
    Yields (t.scaleRows a) t.ty t.nr t.nc (fun i j => a.data.getD i 0 * t.val.get i j) := by
  unfold TMat.scaleRows
  cases hty : t.ty with
  | dense =>
    simp only [hs, if_true]
    exact yields_wrap (A := t.val.scaleRows _) h1 h2 (fun _ _ _ _ => rfl)
  | sparse =>
    simp only [hl, if_true]
    exact yields_wrap (A := t.val.scaleRows _) h1 h2 (fun _ _ _ _ => rfl)

/-- **C37** `scale_columns`: column `j` is multiplied by the `j`-th value (arrays of shape `(1,n)` or `(n,)`). -/
theorem C37_scale_columns (t : TMat K) (a : Arr K) (h1 : 0 < t.nr) (h2 : 0 < t.nc)
    (hs : a.shape = [1, t.nc] ∨ a.shape = [t.nc]) (hl : a.data.length = t.nc) :
    Yields (t.scaleCols a) t.ty t.nr t.nc (fun i j => t.val.get i j * a.data.getD j 0) := by
  unfold TMat.scaleCols
  cases hty : t.ty with
  | dense =>
    simp only [hs, if_true]
    exact yields_wrap (A := t.val.scaleCols _) h1 h2 (fun _ _ _ _ => rfl)
  | sparse =>
    simp only [hl, if_true]
    exact yields_wrap (A := t.val.scaleCols _) h1 h2 (fun _ _ _ _ => rfl)

/-- **C37** an array of the wrong length raises `ValueError`, for both classes. (The shape of an array determines its
length: `hprod`.) -/
theorem C37_scale_wrong_length (t : TMat K) (a : Arr K) (hprod : a.data.length = a.shape.prod) :
    (a.data.length ≠ t.nr → t.scaleRows a = .error .valueError) ∧
    (a.data.length ≠ t.nc → t.scaleCols a = .error .valueError) := by
  constructor
  · intro h
    unfold TMat.scaleRows
    split
    · rw [if_neg]
      rintro (hs | hs) <;> · rw [hs] at hprod; simp at hprod; exact h hprod
    · rw [if_neg h]
  · intro h
    unfold TMat.scaleCols
    split
    · rw [if_neg]
      rintro (hs | hs) <;> · rw [hs] at hprod; simp at hprod; exact h hprod
    · rw [if_neg h]

/-- **C37** `padd_matrix`: axis 0 appends one constant row, axis 1 one constant column, any other axis raises
`ValueError`. -/
theorem C37_padd_matrix (t : TMat K) (v : K) (h1 : 0 < t.nr) (h2 : 0 < t.nc) :
    Yields (t.padd 0 v) t.ty (t.nr + 1) t.nc (fun i j => if i < t.nr then t.val.get i j else v) ∧
    Yields (t.padd 1 v) t.ty t.nr (t.nc + 1) (fun i j => if j < t.nc then t.val.get i j else v) ∧
    ∀ axis : ℤ, axis ≠ 0 → axis ≠ 1 → t.padd axis v = .error .valueError := by
  refine ⟨?_, ?_, ?_⟩
  · unfold TMat.padd
    rw [if_pos rfl, TMat.ofNumpy_ok (by simp [Mat.const]) (by simpa [Mat.const] using h2)]
    simp only [TMat.vstack, TMat.nc, Mat.const, Mat.of_nc, if_true]
    obtain ⟨u, hu, e1, e2, e3, e4⟩ := yields_wrap (ty := t.ty)
      (A := t.val.vstack (Mat.of 1 t.val.nc (fun _ _ => v)))
      (by simp) h2 (fun i j _ _ => rfl)
    refine ⟨u, hu, e1, e2, e3, fun i j hi hj => ?_⟩
    rw [e4 i j hi hj, Mat.vstack_get (A := t.val) (B := Mat.of 1 t.val.nc (fun _ _ => v)) rfl]
    by_cases hi' : i < t.val.nr
    · simp only [if_pos hi']
    · simp only [if_neg hi']; rw [Mat.of_get_lt (by simp only [TMat.nr] at hi; omega) hj]
  · unfold TMat.padd
    rw [if_neg (by decide), if_pos rfl, TMat.ofNumpy_ok (by simpa [Mat.const] using h1) (by simp [Mat.const])]
    simp only [TMat.hstack, TMat.nr, Mat.const, Mat.of_nr, if_true]
    obtain ⟨u, hu, e1, e2, e3, e4⟩ := yields_wrap (ty := t.ty)
      (A := t.val.hstack (Mat.of t.val.nr 1 (fun _ _ => v)))
      h1 (by simp) (fun i j _ _ => rfl)
    refine ⟨u, hu, e1, e2, e3, fun i j hi hj => ?_⟩
    rw [e4 i j hi hj, Mat.hstack_get (A := t.val) (B := Mat.of t.val.nr 1 (fun _ _ => v)) rfl]
    by_cases hj' : j < t.val.nc
    · simp only [if_pos hj']
    · simp only [if_neg hj']; rw [Mat.of_get_lt hi (by simp only [TMat.nc] at hj; omega)]
  · intro axis ha hb
    simp [TMat.padd, ha, hb]

/-- non-vacuity: a 2×3 matrix and arrays of the right shapes. -/
example : ∃ (t : TMat ℚ) (a b : Arr ℚ), 0 < t.nr ∧ 0 < t.nc ∧ a.shape = [t.nr, 1] ∧ a.data.length = t.nr ∧
    b.shape = [1, t.nc] ∧ b.data.length = t.nc ∧ t.val.get 1 2 ≠ 0 :=
  ⟨⟨.sparse, Mat.of 2 3 (fun i j => i + j)⟩, ⟨[2, 1], [3, 4]⟩, ⟨[1, 3], [5, 6, 7]⟩, by decide, by decide, rfl, rfl,
    rfl, rfl, by simp only [Mat.of_get]; norm_num⟩

end C37

end Dissect
