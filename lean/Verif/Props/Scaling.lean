import Verif.Lemmas.Scaling

/-! # Properties of the weightings, normalisations and feature selection (C16–C20) -/

namespace Dissect
open Finset

/-! ## C16 -/

theorem sum0_sum (m : TMat ℝ) : m.sum0.sum = m.val.total := by
  unfold TMat.sum0 Arr.sum Mat.total
  simp only
  rw [Finset.sum_comm]
  rw [← List.sum_toFinset _ List.nodup_range]
  simp only [Mat.colSum, TMat.nc]
  congr 1
  ext; simp

theorem sum0_inv_getD (m : TMat ℝ) {j : ℕ} (hj : j < m.nc) :
    ((nonzeroInvert m.sum0).scale m.sum0.sum).data.getD j 0 = (m.val.colSum j)⁻¹ * m.val.total := by
  have h : nonzeroInvert m.sum0 = ⟨[1, m.nc], (List.range m.nc).map (fun i => (m.val.colSum i)⁻¹)⟩ :=
    nonzeroInvert_ofFun _ _ _
  rw [h, sum0_sum]
  unfold Arr.scale
  simp only [List.map_map]
  rw [TMat.getD_map_range _ _ hj]
  rfl

/-- All entries are non-negative. -/
def NonNegative (A : Mat ℝ) : Prop := ∀ i j, i < A.nr → j < A.nc → 0 ≤ A.get i j

/-- The documented EPMI formula, with the convention that an empty cell stays empty. -/
noncomputable def epmiSpec (A : Mat ℝ) (i j : ℕ) : ℝ :=
  if A.get i j = 0 then 0 else A.get i j * A.total / (A.rowSum i * A.colSum j)

/-- The division in `epmiSpec` is never by zero: a non-empty cell has positive row and column sums. -/
theorem C16_no_division_by_zero (A : Mat ℝ) (h : NonNegative A) (i j : ℕ) (hi : i < A.nr) (hj : j < A.nc)
    (h0 : A.get i j ≠ 0) : 0 < A.rowSum i ∧ 0 < A.colSum j ∧ 0 < A.total := by
  have hx : 0 < A.get i j := lt_of_le_of_ne (h i j hi hj) (Ne.symm h0)
  have hr : 0 < A.rowSum i :=
    Finset.sum_pos' (fun k hk => h i k hi (Finset.mem_range.1 hk)) ⟨j, Finset.mem_range.2 hj, hx⟩
  refine ⟨hr, Finset.sum_pos' (fun k hk => h k j (Finset.mem_range.1 hk) hj) ⟨i, Finset.mem_range.2 hi, hx⟩, ?_⟩
  exact Finset.sum_pos' (fun k hk => Finset.sum_nonneg (fun l hl => h k l (Finset.mem_range.1 hk) (Finset.mem_range.1 hl)))
    ⟨i, Finset.mem_range.2 hi, hr⟩

theorem epmi_good (m : TMat ℝ) (hc : 0 < m.nc) (h : NonNegative m.val) : (epmiMap m.sum0).Good m :=
  ⟨⟨fun _ => ⟨hc, Or.inl rfl⟩, fun _ => by simp [TMat.sum0]⟩, fun i hi j hj => h i j hi hj⟩

theorem epmiMap_row (m : TMat ℝ) {i j : ℕ} (hj : j < m.nc) :
    (epmiMap m.sum0).row m.nc (m.val.get i) j = epmiSpec m.val i j := by
  simp only [epmiMap, epmiSpec]
  rw [sum0_inv_getD m hj]
  have : ∑ k ∈ range m.nc, m.val.get i k = m.val.rowSum i := rfl
  rw [this]
  split
  · rename_i h; rw [h]; ring
  · rw [div_eq_mul_inv, mul_inv]; ring

/-- **C16** EPMI. -/
theorem C16_epmi (m : TMat ℝ) (hr : 0 < m.nr) (hc : 0 < m.nc) (h : NonNegative m.val) :
    Yields (epmi m none) m.ty m.nr m.nc (epmiSpec m.val) := by
  have this : epmi m (some m.sum0) = _ := (models_epmi m.sum0 m hr).1 (epmi_good m hc h)
  have e : epmi m none = epmi m (some m.sum0) := rfl
  rw [e, this]
  refine ⟨_, rfl, rfl, rfl, rfl, fun i j hi hj => ?_⟩
  rw [RowMap.out_row _ _ hi]
  simp only
  rw [if_pos (show j < (epmiMap m.sum0).width m.nc from hj), epmiMap_row m hj]

theorem plog_eq_max (x : ℝ) : (if x < 1 then 0 else Real.log x) = if x = 0 then 0 else if x < 0 then 0 else max 0 (Real.log x) := by
  split
  · rename_i h
    by_cases h0 : x = 0
    · simp [h0]
    · rw [if_neg h0]
      split
      · rfl
      · rename_i hneg
        rw [max_eq_left (Real.log_nonpos (not_lt.1 hneg) h.le)]
  · rename_i h
    push Not at h
    rw [if_neg (by linarith), if_neg (by linarith), max_eq_right (Real.log_nonneg h)]

/-- The documented PPMI formula. -/
noncomputable def ppmiSpec (A : Mat ℝ) (i j : ℕ) : ℝ :=
  if A.get i j = 0 then 0 else max 0 (Real.log (A.get i j * A.total / (A.rowSum i * A.colSum j)))

theorem ppmi_of_epmi (A : Mat ℝ) (h : NonNegative A) {i j : ℕ} (hi : i < A.nr) (hj : j < A.nc) :
    (if epmiSpec A i j < 1 then 0 else Real.log (epmiSpec A i j)) = ppmiSpec A i j := by
  rw [plog_eq_max]
  unfold ppmiSpec epmiSpec
  by_cases h0 : A.get i j = 0
  · simp [h0]
  · obtain ⟨h1, h2, h3⟩ := C16_no_division_by_zero A h i j hi hj h0
    have hx : 0 < A.get i j := lt_of_le_of_ne (h i j hi hj) (Ne.symm h0)
    have hpos : 0 < A.get i j * A.total / (A.rowSum i * A.colSum j) :=
      div_pos (mul_pos hx h3) (mul_pos h1 h2)
    simp only [h0, if_false]
    rw [if_neg hpos.ne', if_neg (not_lt.2 hpos.le)]

theorem ppmi_row (m : TMat ℝ) (h : NonNegative m.val) {i j : ℕ} (hi : i < m.nr) (hj : j < m.nc) :
    ((epmiMap m.sum0).comp plogMap).row m.nc (m.val.get i) j = ppmiSpec m.val i j := by
  rw [← ppmi_of_epmi m.val h hi hj]
  show (if (if j < m.nc then (epmiMap m.sum0).row m.nc (m.val.get i) j else 0) < 1 then 0 else
    Real.log (if j < m.nc then (epmiMap m.sum0).row m.nc (m.val.get i) j else 0)) = _
  rw [if_pos hj, epmiMap_row m hj]

theorem ppmi_good (m : TMat ℝ) (hc : 0 < m.nc) (h : NonNegative m.val) :
    ((epmiMap m.sum0).comp plogMap).Good m :=
  ⟨⟨(epmi_good m hc h).1, trivial⟩, fun i hi => ⟨(epmi_good m hc h).2 i hi, trivial⟩⟩

/-- **C16** PPMI. -/
theorem C16_ppmi (m : TMat ℝ) (hr : 0 < m.nr) (hc : 0 < m.nc) (h : NonNegative m.val) :
    Yields (ppmi m none) m.ty m.nr m.nc (ppmiSpec m.val) := by
  have this : ppmi m (some m.sum0) = _ := (models_ppmi m.sum0 m hr).1 (ppmi_good m hc h)
  have e : ppmi m none = ppmi m (some m.sum0) := rfl
  rw [e, this]
  refine ⟨_, rfl, rfl, rfl, rfl, fun i j hi hj => ?_⟩
  rw [RowMap.out_row _ _ hi]
  simp only
  rw [if_pos (show j < ((epmiMap m.sum0).comp plogMap).width m.nc from hj), ppmi_row m h hi hj]

/-- **C16** PLMI is the count times PPMI. -/
theorem C16_plmi (m : TMat ℝ) (hr : 0 < m.nr) (hc : 0 < m.nc) (h : NonNegative m.val) :
    Yields (plmi m none) m.ty m.nr m.nc (fun i j => m.val.get i j * ppmiSpec m.val i j) := by
  have hg : (plmiMap m.sum0).Good m := ppmi_good m hc h
  have this : plmi m (some m.sum0) = _ := (models_plmi m.sum0 m hr).1 hg
  have e : plmi m none = plmi m (some m.sum0) := rfl
  rw [e, this]
  refine ⟨_, rfl, rfl, rfl, rfl, fun i j hi hj => ?_⟩
  rw [RowMap.out_row _ _ hi]
  simp only
  rw [if_pos (show j < (plmiMap m.sum0).width m.nc from hj)]
  show m.val.get i j * ((epmiMap m.sum0).comp plogMap).row m.nc (m.val.get i) j = _
  rw [ppmi_row m h hi hj]

/-- **C16** a negative entry is rejected with `ValueError` by all three. -/
theorem C16_negative_rejected (m : TMat ℝ) (marg : Option (Arr ℝ)) (h : ¬ NonNegative m.val) :
    epmi m marg = .error .valueError ∧ ppmi m marg = .error .valueError ∧ plmi m marg = .error .valueError := by
  have hneg : ¬ ∀ i, i < m.nr → ∀ j, j < m.nc → 0 ≤ m.val.get i j := fun hh => h (fun i j hi hj => hh i hi j hj)
  have h1 : epmi m marg = .error .valueError := by
    simp only [epmi, (assertPositive_rows m).2 hneg, error_bind]
  have h2 : ppmi m marg = .error .valueError := by simp only [ppmi, h1, error_bind]
  exact ⟨h1, h2, by simp only [plmi, h2, error_bind]⟩

/-- The result of PPMI and EPMI is non-negative. -/
theorem C16_nonnegative (A : Mat ℝ) (h : NonNegative A) (i j : ℕ) (hi : i < A.nr) (hj : j < A.nc) :
    0 ≤ epmiSpec A i j ∧ 0 ≤ ppmiSpec A i j := by
  constructor
  · unfold epmiSpec
    split
    · exact le_rfl
    · rename_i h0
      obtain ⟨h1, h2, h3⟩ := C16_no_division_by_zero A h i j hi hj h0
      exact div_nonneg (mul_nonneg (h i j hi hj) h3.le) (mul_nonneg h1.le h2.le)
  · unfold ppmiSpec
    split
    · exact le_rfl
    · exact le_max_left _ _

example : NonNegative (Mat.of 2 2 (fun i j => ((i * j : ℕ) : ℝ))) := by
  intro i j hi hj
  rw [Mat.of_get_lt (by simpa using hi) (by simpa using hj)]
  exact Nat.cast_nonneg _

example : ¬ NonNegative (Mat.of 1 1 (fun _ _ => (-1 : ℝ))) := by
  intro h
  have := h 0 0 (by simp) (by simp)
  rw [Mat.of_get_lt (by omega) (by omega)] at this
  norm_num at this

/-! ## C17 -/

/-- **C17** plog weighting. -/
theorem C17_plog (m : TMat ℝ) (hr : 0 < m.nr) (hc : 0 < m.nc) :
    Yields (plogWeighting m) m.ty m.nr m.nc
      (fun i j => if 1 ≤ m.val.get i j then Real.log (m.val.get i j) else 0) := by
  rw [(models_plogW m hr).1 ⟨fun _ => hc, fun _ _ => trivial⟩]
  refine ⟨_, rfl, rfl, rfl, rfl, fun i j hi hj => ?_⟩
  rw [RowMap.out_row _ _ hi]
  simp only
  rw [if_pos (show j < plogWMap.width m.nc from hj)]
  show (if m.val.get i j < 1 then 0 else Real.log (m.val.get i j)) = _
  by_cases h : m.val.get i j < 1
  · rw [if_pos h, if_neg (not_le.2 h)]
  · rw [if_neg h, if_pos (not_lt.1 h)]

/-- **C17** the in-place method gives the same numbers for both classes; the result is `max(0, log x)` on positive
entries and never negative. -/
theorem C17_plog_in_place (t : TMat ℝ) (i j : ℕ) (hi : i < t.nr) (hj : j < t.nc) :
    t.plog.val.get i j = (if 1 ≤ t.val.get i j then Real.log (t.val.get i j) else 0) ∧
    0 ≤ t.plog.val.get i j ∧ (0 < t.val.get i j → t.plog.val.get i j = max 0 (Real.log (t.val.get i j))) := by
  rw [plog_get t hi hj]
  refine ⟨?_, ?_, ?_⟩
  · by_cases h : t.val.get i j < 1
    · rw [if_pos h, if_neg (not_le.2 h)]
    · rw [if_neg h, if_pos (not_lt.1 h)]
  · split
    · exact le_rfl
    · rename_i h; exact Real.log_nonneg (not_lt.1 h)
  · intro hpos
    rw [plog_eq_max, if_neg hpos.ne', if_neg (not_lt.2 hpos.le)]

example : ∃ t : TMat ℝ, 0 < t.nr ∧ 0 < t.nc := ⟨⟨.sparse, Mat.of 2 3 (fun _ _ => 5)⟩, by simp [TMat.nr], by simp [TMat.nc]⟩

/-! ## C18 -/

/-- Length (Euclidean norm) of row `i`. -/
noncomputable def rowLength (A : Mat ℝ) (i : ℕ) : ℝ := Real.sqrt (∑ j ∈ range A.nc, A.get i j ^ 2)

/-- The quantity that the criterion refers to. -/
noncomputable def rowQuantity (c : Crit) (A : Mat ℝ) (i : ℕ) : ℝ :=
  match c with
  | .length => rowLength A i
  | .sum => ∑ j ∈ range A.nc, A.get i j

theorem rowScale_eq (c : Crit) (A : Mat ℝ) (i : ℕ) : rowScale c A.nc (A.get i) = rowQuantity c A i := by
  cases c with
  | length =>
    unfold rowScale rowQuantity rowLength
    simp only [pow_two]
  | sum => rfl

theorem rowNorm_values (c : Crit) (m : TMat ℝ) (hr : 0 < m.nr) (hc : 0 < m.nc) :
    Yields (rowNormalization c m) m.ty m.nr m.nc (fun i j => (rowQuantity c m.val i)⁻¹ * m.val.get i j) := by
  rw [(models_rowNorm c m hr).1 ⟨fun _ => hc, fun _ _ => trivial⟩]
  refine ⟨_, rfl, rfl, rfl, rfl, fun i j hi hj => ?_⟩
  rw [RowMap.out_row _ _ hi]
  simp only
  rw [if_pos (show j < (rowNormMap c).width m.nc from hj)]
  show (rowScale c m.nc (m.val.get i))⁻¹ * m.val.get i j = _
  rw [rowScale_eq c m.val i]

/-- **C18** after row normalisation every row whose length (sum) was non-zero is the old row divided by it and has
length (sum) exactly 1; the other rows become zero rows. -/
theorem C18_row_normalization (c : Crit) (m : TMat ℝ) (hr : 0 < m.nr) (hc : 0 < m.nc) :
    ∃ r, rowNormalization c m = .ok r ∧ r.ty = m.ty ∧ r.nr = m.nr ∧ r.nc = m.nc ∧
      (∀ i, i < m.nr → rowQuantity c m.val i ≠ 0 →
        rowQuantity c r.val i = 1 ∧
        ∀ j, r.val.get i j = m.val.get i j / rowQuantity c m.val i) ∧
      (∀ i, i < m.nr → rowQuantity c m.val i = 0 → ∀ j, r.val.get i j = 0) := by
  obtain ⟨r, h1, h2, h3, h4, h5⟩ := rowNorm_values c m hr hc
  have hget : ∀ i, i < m.nr → ∀ j, r.val.get i j = (rowQuantity c m.val i)⁻¹ * m.val.get i j := by
    intro i hi j
    by_cases hj : j < m.nc
    · exact h5 i j hi hj
    · have hj' : ¬ j < r.nc := by rw [h4]; exact hj
      rw [r.val.get_col_oob i (not_lt.1 hj'), m.val.get_col_oob i (not_lt.1 hj), mul_zero]
  refine ⟨r, h1, h2, h3, h4, ?_, ?_⟩
  · intro i hi h0
    have hone : rowQuantity c r.val i = 1 := by
      have hnc : r.val.nc = m.val.nc := h4
      cases c with
      | sum =>
        simp only [rowQuantity] at h0 ⊢
        rw [hnc, Finset.sum_congr rfl (fun j _ => hget i hi j), ← Finset.mul_sum]
        exact inv_mul_cancel₀ h0
      | length =>
        simp only [rowQuantity] at h0 hget ⊢
        unfold rowLength
        rw [hnc, Finset.sum_congr rfl (fun j _ => by rw [hget i hi j, mul_pow])]
        rw [← Finset.mul_sum]
        have hsq : ∑ j ∈ range m.val.nc, m.val.get i j ^ 2 = rowLength m.val i ^ 2 := by
          unfold rowLength
          rw [Real.sq_sqrt (Finset.sum_nonneg (fun j _ => sq_nonneg _))]
        rw [hsq, ← mul_pow, inv_mul_cancel₀ h0]
        simp
    refine ⟨hone, fun j => ?_⟩
    rw [hget i hi j, div_eq_mul_inv, mul_comm]
  · intro i hi h0 j
    rw [hget i hi j, h0]
    simp

/-- **C18** with the length criterion a second normalisation changes nothing. -/
theorem C18_idempotent (c : Crit) (m r r' : TMat ℝ) (hr : 0 < m.nr) (hc : 0 < m.nc)
    (h1 : rowNormalization c m = .ok r) (h2 : rowNormalization c r = .ok r') : r' = r := by
  obtain ⟨r0, e1, e2, e3, e4, e5, e6⟩ := C18_row_normalization c m hr hc
  rw [h1] at e1
  obtain rfl := ok_inj e1
  obtain ⟨r1, f1, f2, f3, f4, f5, f6⟩ := C18_row_normalization c r (by rw [e3]; exact hr) (by rw [e4]; exact hc)
  rw [h2] at f1
  obtain rfl := ok_inj f1
  refine TMat.ext' f2 (Mat.ext' f3 f4 (fun i j hi hj => ?_))
  have hi' : i < r.nr := by rw [← f3]; exact hi
  have hi'' : i < m.nr := by rw [← e3]; exact hi'
  by_cases h0 : rowQuantity c m.val i = 0
  · have hz : ∀ j, r.val.get i j = 0 := e6 i hi'' h0
    have : rowQuantity c r.val i = 0 := by
      cases c with
      | sum => simp [rowQuantity, hz]
      | length => simp [rowQuantity, rowLength, hz]
    rw [f6 i hi' this j, hz]
  · obtain ⟨hone, _⟩ := e5 i hi'' h0
    rw [(f5 i hi' (by rw [hone]; exact one_ne_zero)).2 j, hone, div_one]

/-- With the length criterion "length zero" means "all entries zero". -/
theorem C18_length_zero_iff (A : Mat ℝ) (i : ℕ) : rowLength A i = 0 ↔ ∀ j, j < A.nc → A.get i j = 0 := by
  unfold rowLength
  rw [Real.sqrt_eq_zero (Finset.sum_nonneg (fun j _ => sq_nonneg _)),
    Finset.sum_eq_zero_iff_of_nonneg (fun j _ => sq_nonneg _)]
  simp [Finset.mem_range]

/-! ## C19 -/

/-- The quantity that the criterion refers to, for the whole matrix. -/
noncomputable def matQuantity (c : Crit) (A : Mat ℝ) : ℝ :=
  match c with
  | .length => Real.sqrt (∑ i ∈ range A.nr, ∑ j ∈ range A.nc, A.get i j ^ 2)
  | .sum => ∑ i ∈ range A.nr, ∑ j ∈ range A.nc, A.get i j

/-- **C19** normalisation: the whole matrix divided by its sum (length), which becomes 1; unchanged if it was zero. -/
theorem C19_normalization (c : Crit) (m : TMat ℝ) (hr : 0 < m.nr) (hc : 0 < m.nc) :
    ∃ r, normalization c m none = .ok r ∧ r.ty = m.ty ∧ r.nr = m.nr ∧ r.nc = m.nc ∧
      (matQuantity c m.val ≠ 0 → matQuantity c r.val = 1 ∧
        ∀ i j, r.val.get i j = m.val.get i j / matQuantity c m.val) ∧
      (matQuantity c m.val = 0 → r = m) := by
  have hq : normTotal c m = matQuantity c m.val := by cases c <;> rfl
  unfold normalization
  simp only [Option.getD_none]
  rw [hq]
  by_cases h0 : matQuantity c m.val = 0
  · rw [if_pos h0]
    exact ⟨m, rfl, rfl, rfl, rfl, fun h => absurd h0 h, fun _ => rfl⟩
  · rw [if_neg h0]
    unfold TMat.mulScalar
    rw [TMat.wrap_ok (A := m.val.smul (1 / matQuantity c m.val)) (fun _ => ⟨hr, hc⟩)]
    refine ⟨_, rfl, rfl, rfl, rfl, fun _ => ⟨?_, fun i j => ?_⟩, fun h => absurd h h0⟩
    · cases c with
      | sum =>
        simp only [matQuantity, Mat.smul_get, Mat.smul_nr, Mat.smul_nc] at h0 ⊢
        simp only [← Finset.mul_sum]
        exact one_div_mul_cancel h0
      | length =>
        have hsq : ∑ i ∈ range m.val.nr, ∑ j ∈ range m.val.nc, m.val.get i j ^ 2 = matQuantity .length m.val ^ 2 := by
          unfold matQuantity
          simp only
          rw [Real.sq_sqrt (Finset.sum_nonneg (fun i _ => Finset.sum_nonneg (fun j _ => sq_nonneg _)))]
        show Real.sqrt _ = 1
        simp only [Mat.smul_get, Mat.smul_nr, Mat.smul_nc, mul_pow]
        simp only [← Finset.mul_sum]
        rw [hsq, ← mul_pow, one_div_mul_cancel h0]
        simp
    · show 1 / matQuantity c m.val * m.val.get i j = _
      ring

/-! ## C20 -/

/-- The score of column `j`. -/
noncomputable def colQuantity (c : Crit) (A : Mat ℝ) (j : ℕ) : ℝ :=
  match c with
  | .length => Real.sqrt (∑ i ∈ range A.nr, A.get i j ^ 2)
  | .sum => ∑ i ∈ range A.nr, A.get i j

/-- What a correct choice of the best `k` columns is. -/
structure BestColumns (c : Crit) (A : Mat ℝ) (k : ℕ) (sel : List ℕ) : Prop where
  count : sel.length = min k A.nc
  distinct : sel.Nodup
  inRange : ∀ x ∈ sel, x < A.nc
  sorted : sel.Pairwise (fun a b => colQuantity c A b < colQuantity c A a ∨
    (colQuantity c A b = colQuantity c A a ∧ a < b))
  best : ∀ x ∈ sel, ∀ y, y < A.nc → y ∉ sel → colQuantity c A y < colQuantity c A x ∨
    (colQuantity c A y = colQuantity c A x ∧ x < y)

theorem topFeatureSelection_eq (k : ℕ) (c : Crit) (m : TMat ℝ) : topFeatureSelection k c m =
    (m.getCols ((sortedPermutation (⟨[1, m.nc], (List.range m.nc).map (colQuantity c m.val)⟩ : Arr ℝ)).take
      (min k m.nc))).bind (fun r => .ok (r, (sortedPermutation
        (⟨[1, m.nc], (List.range m.nc).map (colQuantity c m.val)⟩ : Arr ℝ)).take (min k m.nc))) := by
  cases c with
  | sum => rfl
  | length =>
    have : m.norm0 = ⟨[1, m.nc], (List.range m.nc).map (colQuantity .length m.val)⟩ := by
      unfold TMat.norm0
      congr 1
      apply List.map_congr_left
      intro j _
      simp only [colQuantity, Mat.colSum, Mat.had_get, Mat.had_nr, pow_two]
    unfold topFeatureSelection
    simp only [this]
    rfl

theorem sel_best (c : Crit) (m : TMat ℝ) (k : ℕ) :
    BestColumns c m.val k ((sortedPermutation
      (⟨[1, m.nc], (List.range m.nc).map (colQuantity c m.val)⟩ : Arr ℝ)).take (min k m.nc)) := by
  have hlen : ((List.range m.nc).map (colQuantity c m.val)).length = m.nc := by simp
  have hperm : (sortedPermutation (⟨[1, m.nc], (List.range m.nc).map (colQuantity c m.val)⟩ : Arr ℝ)).Perm
      (List.range m.nc) := by
    have := sortedDesc_perm (K := ℝ) ((List.range m.nc).map (colQuantity c m.val)).length
      (fun i => ((List.range m.nc).map (colQuantity c m.val)).getD i 0)
    rw [hlen] at this
    unfold sortedPermutation
    simp only [hlen]
    exact this
  have hpw := sortedDesc_pairwise (K := ℝ) ((List.range m.nc).map (colQuantity c m.val)).length
      (fun i => ((List.range m.nc).map (colQuantity c m.val)).getD i 0)
  set p := sortedPermutation (⟨[1, m.nc], (List.range m.nc).map (colQuantity c m.val)⟩ : Arr ℝ) with hp
  have hpw' : p.Pairwise (fun a b => colQuantity c m.val b < colQuantity c m.val a ∨
      (colQuantity c m.val b = colQuantity c m.val a ∧ a < b)) := by
    have hpw2 : p.Pairwise (fun a b => ((List.range m.nc).map (colQuantity c m.val)).getD b 0 <
        ((List.range m.nc).map (colQuantity c m.val)).getD a 0 ∨
        (((List.range m.nc).map (colQuantity c m.val)).getD b 0 =
          ((List.range m.nc).map (colQuantity c m.val)).getD a 0 ∧ a < b)) := hpw
    refine List.Pairwise.imp_of_mem (fun {a b} ha hb h => ?_) hpw2
    have ha' : a < m.nc := List.mem_range.1 (hperm.mem_iff.1 ha)
    have hb' : b < m.nc := List.mem_range.1 (hperm.mem_iff.1 hb)
    rw [TMat.getD_map_range _ _ ha', TMat.getD_map_range _ _ hb'] at h
    exact h
  have hplen : p.length = m.nc := by rw [hperm.length_eq]; simp
  refine ⟨?_, ?_, ?_, ?_, ?_⟩
  · rw [List.length_take, hplen]
    show min (min k m.nc) m.nc = min k m.nc
    omega
  · exact ((hperm.nodup_iff.2 List.nodup_range).sublist (List.take_sublist _ _))
  · intro x hx
    exact List.mem_range.1 (hperm.mem_iff.1 (List.mem_of_mem_take hx))
  · exact hpw'.sublist (List.take_sublist _ _)
  · intro x hx y hy hny
    have hyp : y ∈ p := hperm.mem_iff.2 (List.mem_range.2 hy)
    have hsplit := List.take_append_drop (min k m.nc) p
    have hyd : y ∈ p.drop (min k m.nc) := by
      rw [← hsplit, List.mem_append] at hyp
      exact hyp.resolve_left hny
    rw [← hsplit, List.pairwise_append] at hpw'
    exact hpw'.2.2 x hx y hyd

/-- **C20** the kept columns are the best `min(k, n)` ones and are copied unchanged. -/
theorem C20_top_feature_selection (k : ℕ) (c : Crit) (m : TMat ℝ) (hk : 0 < k) (hr : 0 < m.nr) (hc : 0 < m.nc) :
    ∃ r sel, topFeatureSelection k c m = .ok (r, sel) ∧ BestColumns c m.val k sel ∧
      r.ty = m.ty ∧ r.nr = m.nr ∧ r.nc = min k m.nc ∧
      ∀ (j x : ℕ), sel[j]? = some x → ∀ i, r.val.get i j = m.val.get i x := by
  have hb := sel_best c m k
  set sel := (sortedPermutation
      (⟨[1, m.nc], (List.range m.nc).map (colQuantity c m.val)⟩ : Arr ℝ)).take (min k m.nc) with hsel
  have hcount : sel.length = min k m.nc := hb.count
  have hcols := (models_cols sel m hr).1 ⟨⟨hb.inRange, fun _ => by omega⟩, fun _ _ => trivial⟩
  refine ⟨(colsMap sel).out m, sel, ?_, hb, rfl, rfl, hcount, ?_⟩
  · rw [topFeatureSelection_eq, ← hsel]
    have hcols' : m.getCols sel = .ok ((colsMap sel).out m) := hcols
    rw [hcols']
    rfl
  · intro j x hx i
    have hj : j < sel.length := by
      by_contra hcon
      rw [List.getElem?_eq_none (by omega)] at hx; cases hx
    by_cases hi : i < m.nr
    · rw [RowMap.out_row _ _ hi]
      simp only
      rw [if_pos (show j < (colsMap sel).width m.nc from hj)]
      simp only [colsMap, hx]
    · rw [((colsMap sel).out m).val.get_row_oob j (not_lt.1 hi), m.val.get_row_oob x (not_lt.1 hi)]

/-- **C20** the requested number must be positive. -/
theorem C20_rejects_nonpositive (k : ℤ) :
    (k ≤ 0 → checkDim k = .error .valueError) ∧ (0 < k → checkDim k = .ok k.toNat ∧ 0 < k.toNat) := by
  unfold checkDim
  constructor
  · intro h; rw [if_pos h]
  · intro h; rw [if_neg (not_le.2 h)]; exact ⟨rfl, by omega⟩

example : ∃ (m : TMat ℝ) (k : ℕ), 0 < k ∧ k < m.nc ∧ 0 < m.nr :=
  ⟨⟨.dense, Mat.of 2 3 (fun i j => (i + j : ℕ))⟩, 2, by omega, by simp [TMat.nc], by simp [TMat.nr]⟩

end Dissect
