import Verif.Lemmas.RowMap
import Verif.Props.Matrix

/-! # Each scaling, projection and feature selection is row-wise -/

namespace Dissect
open Finset

/-- Row-wise form of `EPMI` with given column marginals. -/
noncomputable def epmiMap (a : Arr ℝ) : RowMap where
  ty t := t
  width n := n
  row n x j := (∑ k ∈ range n, x k)⁻¹ * x j * ((nonzeroInvert a).scale a.sum).data.getD j 0
  ok t n := (t = .dense → 0 < n ∧ (a.shape = [1, n] ∨ a.shape = [n])) ∧ (t = .sparse → a.data.length = n)
  okRow n x := ∀ j, j < n → 0 ≤ x j

theorem assertPositive_rows (m : TMat ℝ) :
    (m.assertPositive = .ok () ↔ ∀ i, i < m.nr → ∀ j, j < m.nc → 0 ≤ m.val.get i j) ∧
    ((¬ ∀ i, i < m.nr → ∀ j, j < m.nc → 0 ≤ m.val.get i j) → m.assertPositive = .error .valueError) := by
  unfold TMat.assertPositive
  constructor
  · split
    · rename_i h
      simp only [List.all_eq_true, List.mem_range, decide_eq_true_eq] at h
      simpa using h
    · rename_i h
      simp only [List.all_eq_true, List.mem_range, decide_eq_true_eq] at h
      simpa using h
  · intro h
    rw [if_neg]
    simpa only [List.all_eq_true, List.mem_range, decide_eq_true_eq] using h

theorem models_epmi (a : Arr ℝ) : (epmiMap a).Models (fun m => epmi m (some a)) := by
  intro m hn
  have hscaleRows : m.scaleRows (nonzeroInvert m.sum1) =
      TMat.wrap m.ty (m.val.scaleRows (fun i => (m.val.rowSum i)⁻¹)) := by
    unfold TMat.sum1
    rw [nonzeroInvert_ofFun]
    exact TMat.scaleRows_ofFun m _
  have hshape : (nonzeroInvert a |>.scale a.sum).shape = a.shape := rfl
  have hlen : (nonzeroInvert a |>.scale a.sum).data.length = a.data.length := by
    simp [nonzeroInvert, Arr.scale]
  constructor
  · rintro ⟨h1, h2⟩
    have hpos := (assertPositive_rows m).1.2 h2
    simp only [epmi, hpos, ok_bind, Option.getD_some, hscaleRows]
    have hw : TMat.wrap m.ty (m.val.scaleRows (fun i => (m.val.rowSum i)⁻¹)) =
        .ok ⟨m.ty, m.val.scaleRows (fun i => (m.val.rowSum i)⁻¹)⟩ :=
      TMat.wrap_ok (fun hd => ⟨hn, (h1.1 hd).1⟩)
    rw [hw]
    simp only [ok_bind]
    have hval : (m.val.scaleRows (fun i => (m.val.rowSum i)⁻¹)).scaleCols
        (fun j => ((nonzeroInvert a).scale a.sum).data.getD j 0) = ((epmiMap a).out m).val := by
      refine Mat.ext' rfl rfl (fun i j hi hj => ?_)
      have hi' : i < m.val.nr := hi
      have hj' : j < m.val.nc := hj
      simp only [RowMap.out, Mat.of_get, TMat.nr, TMat.nc, hi', hj', Mat.scaleCols_get, Mat.scaleRows_get,
        epmiMap, and_self, if_true, Mat.rowSum]
    cases hty : m.ty with
    | dense =>
      unfold TMat.scaleCols
      simp only
      rw [if_pos (by rw [hshape]; exact (h1.1 hty).2), hval, TMat.wrap_ok (A := ((epmiMap a).out m).val)
        (fun hd => ⟨hn, (h1.1 hty).1⟩)]
      exact congrArg _ (TMat.ext' hty.symm rfl)
    | sparse =>
      unfold TMat.scaleCols
      simp only
      rw [if_pos (by rw [hlen]; exact h1.2 hty), hval, TMat.wrap_ok (ty := .sparse) (A := ((epmiMap a).out m).val)
        (fun hd => nomatch hd)]
      exact congrArg _ (TMat.ext' hty.symm rfl)
  · intro hng
    by_cases hpos : ∀ i, i < m.nr → ∀ j, j < m.nc → 0 ≤ m.val.get i j
    · simp only [epmi, (assertPositive_rows m).1.2 hpos, ok_bind, Option.getD_some, hscaleRows]
      have hok : ¬ (epmiMap a).ok m.ty m.nc := fun h => hng ⟨h, hpos⟩
      cases hty : m.ty with
      | dense =>
        by_cases hc : 0 < m.nc
        · rw [TMat.wrap_ok (A := m.val.scaleRows (fun i => (m.val.rowSum i)⁻¹)) (fun hd => ⟨hn, hc⟩)]
          simp only [ok_bind, TMat.scaleCols]
          rw [if_neg]
          · exact ⟨_, rfl⟩
          · rw [hshape]
            intro hs
            exact hok ⟨fun _ => ⟨hc, hs⟩, fun hs => by rw [hty] at hs; cases hs⟩
        · refine ⟨.valueError, ?_⟩
          unfold TMat.wrap
          simp only
          rw [if_pos (Or.inr (by simp only [TMat.nc] at hc; simp only [Mat.scaleRows_nc]; omega))]
          rfl
      | sparse =>
        simp only [TMat.wrap, ok_bind, TMat.scaleCols]
        rw [if_neg]
        · exact ⟨_, rfl⟩
        · rw [hlen]
          intro hs
          exact hok ⟨fun hd => (by rw [hty] at hd; cases hd), fun _ => hs⟩
    · refine ⟨.valueError, ?_⟩
      simp only [epmi, (assertPositive_rows m).2 hpos, error_bind]

/-- Row-wise form of `plog`. -/
noncomputable def plogMap : RowMap where
  ty t := t
  width n := n
  row _ x j := if x j < 1 then 0 else Real.log (x j)
  ok _ _ := True
  okRow _ _ := True

theorem plog_get (t : TMat ℝ) {i j : ℕ} (hi : i < t.val.nr) (hj : j < t.val.nc) :
    t.plog.val.get i j = if t.val.get i j < 1 then 0 else Real.log (t.val.get i j) := by
  unfold TMat.plog
  cases t.ty with
  | dense =>
    simp only
    rw [Mat.map_get_lt _ _ hi hj]
    split <;> simp
  | sparse =>
    simp only
    rw [Mat.map_get_lt _ _ hi hj]
    by_cases h0 : t.val.get i j = 0
    · simp [h0]
    · rw [if_neg h0]
      rcases lt_trichotomy (t.val.get i j) 1 with h | h | h
      · simp [h, h.le]
      · simp [h]
      · rw [if_neg (not_le.2 h), if_neg (not_lt.2 h.le)]

theorem plog_shape (t : TMat ℝ) : t.plog.ty = t.ty ∧ t.plog.val.nr = t.val.nr ∧ t.plog.val.nc = t.val.nc := by
  unfold TMat.plog
  cases t.ty <;> exact ⟨rfl, rfl, rfl⟩

theorem models_plog : plogMap.Models (fun m => .ok m.plog) := by
  intro m hn
  refine ⟨fun _ => congrArg _ (TMat.ext' (plog_shape m).1
    (Mat.ext' (plog_shape m).2.1 (plog_shape m).2.2 (fun i j hi hj => ?_))), fun h => ?_⟩
  · rw [(plog_shape m).2.1] at hi
    rw [(plog_shape m).2.2] at hj
    rw [plog_get m hi hj]
    simp [RowMap.out, plogMap, Mat.of_get, TMat.nr, TMat.nc, hi, hj]
  · exact absurd ⟨trivial, fun _ _ => trivial⟩ h

theorem models_ppmi (a : Arr ℝ) : ((epmiMap a).comp plogMap).Models (fun m => ppmi m (some a)) :=
  (models_epmi a).comp models_plog

/-- Row-wise form of `PLMI`. -/
noncomputable def plmiMap (a : Arr ℝ) : RowMap :=
  { (epmiMap a).comp plogMap with row := fun n x j => x j * ((epmiMap a).comp plogMap).row n x j }

theorem models_plmi (a : Arr ℝ) : (plmiMap a).Models (fun m => plmi m (some a)) := by
  intro m hn
  obtain ⟨h1, h2⟩ := models_ppmi a m hn
  have hGood : (plmiMap a).Good m ↔ ((epmiMap a).comp plogMap).Good m := Iff.rfl
  rw [hGood]
  constructor
  · intro hg
    simp only [plmi, h1 hg, ok_bind, TMat.multiply]
    have hdense : m.ty = .dense → 0 < m.nc := fun hd => ((hg.1.1).1 hd).1
    have hval : m.val.had (((epmiMap a).comp plogMap).out m).val = ((plmiMap a).out m).val := by
      refine Mat.ext' rfl rfl (fun i j hi hj => ?_)
      have hi' : i < m.val.nr := hi
      have hj' : j < m.val.nc := hj
      simp only [RowMap.out, Mat.had_get, Mat.of_get, plmiMap, RowMap.comp, epmiMap, plogMap, TMat.nr, TMat.nc, hi', hj',
        and_self, if_true]
    have e1 : m.ty = (((epmiMap a).comp plogMap).out m).ty := rfl
    have e2 : m.nr = (((epmiMap a).comp plogMap).out m).nr ∧ m.nc = (((epmiMap a).comp plogMap).out m).nc := ⟨rfl, rfl⟩
    rw [if_pos e1, if_pos e2, hval,
      TMat.wrap_ok (A := ((plmiMap a).out m).val) (fun hd => ⟨hn, hdense hd⟩)]
    rfl
  · intro hng
    obtain ⟨e, he⟩ := h2 hng
    exact ⟨e, by simp only [plmi, he, error_bind]⟩

/-- Row-wise form of `PlogWeighting`. -/
noncomputable def plogWMap : RowMap := { plogMap with ok := fun t n => t = .dense → 0 < n }

theorem models_plogW : plogWMap.Models plogWeighting := by
  intro m hn
  constructor
  · rintro ⟨h1, _⟩
    simp only [plogWeighting, TMat.copy, TMat.wrap_ok (A := m.val) (fun hd => ⟨hn, h1 hd⟩), ok_bind]
    exact (models_plog m hn).1 ⟨trivial, fun _ _ => trivial⟩
  · intro hng
    have hd : m.ty = .dense ∧ ¬ 0 < m.nc := by
      by_contra hc
      exact hng ⟨fun hd => by by_contra h0; exact hc ⟨hd, h0⟩, fun _ _ => trivial⟩
    refine ⟨.valueError, ?_⟩
    simp only [plogWeighting, TMat.copy, hd.1, TMat.wrap]
    rw [if_pos (Or.inr (by have := hd.2; simp only [TMat.nc] at this; omega))]
    rfl

/-- The number by which `RowNormalization` divides a row. -/
noncomputable def rowScale (c : Crit) (n : ℕ) (x : ℕ → ℝ) : ℝ :=
  match c with
  | .length => Real.sqrt (∑ k ∈ range n, x k * x k)
  | .sum => ∑ k ∈ range n, x k

/-- Row-wise form of `RowNormalization`. -/
noncomputable def rowNormMap (c : Crit) : RowMap where
  ty t := t
  width n := n
  row n x j := (rowScale c n x)⁻¹ * x j
  ok t n := t = .dense → 0 < n
  okRow _ _ := True

theorem rowNorm_eq (c : Crit) (m : TMat ℝ) : rowNormalization c m =
    TMat.wrap m.ty (m.val.scaleRows (fun i => (rowScale c m.nc (m.val.get i))⁻¹)) := by
  unfold rowNormalization
  cases c with
  | length =>
    simp only
    unfold TMat.norm1
    rw [nonzeroInvert_ofFun]
    rw [TMat.scaleRows_ofFun m]
    rfl
  | sum =>
    simp only
    unfold TMat.sum1
    rw [nonzeroInvert_ofFun]
    rw [TMat.scaleRows_ofFun m]
    rfl

theorem models_rowNorm (c : Crit) : (rowNormMap c).Models (rowNormalization c) := by
  intro m hn
  rw [rowNorm_eq]
  constructor
  · rintro ⟨h1, _⟩
    rw [TMat.wrap_ok (A := m.val.scaleRows _) (fun hd => ⟨hn, h1 hd⟩)]
    refine congrArg _ (TMat.ext' rfl (Mat.ext' rfl rfl (fun i j hi hj => ?_)))
    have hi' : i < m.val.nr := hi
    have hj' : j < m.val.nc := hj
    simp only [RowMap.out, rowNormMap, Mat.of_get, TMat.nr, TMat.nc, hi', hj', and_self, if_true, Mat.scaleRows_get]
  · intro hng
    have hd : m.ty = .dense ∧ ¬ 0 < m.nc := by
      by_contra hc
      exact hng ⟨fun hd => by by_contra h0; exact hc ⟨hd, h0⟩, fun _ _ => trivial⟩
    refine ⟨.valueError, ?_⟩
    simp only [hd.1, TMat.wrap]
    rw [if_pos (Or.inr (by have := hd.2; simp only [TMat.nc] at this; simp only [Mat.scaleRows_nc]; omega))]

/-- Row-wise form of `Normalization` with a given total. -/
noncomputable def normMap (total : ℝ) : RowMap where
  ty t := t
  width n := n
  row _ x j := if total = 0 then x j else 1 / total * x j
  ok t n := total ≠ 0 → t = .dense → 0 < n
  okRow _ _ := True

theorem models_norm (c : Crit) (total : ℝ) : (normMap total).Models (fun m => normalization c m (some total)) := by
  intro m hn
  unfold normalization
  simp only [Option.getD_some]
  by_cases h0 : total = 0
  · simp only [h0, if_true]
    refine ⟨fun _ => congrArg _ (TMat.ext' rfl (Mat.ext' rfl rfl (fun i j hi hj => ?_))), fun hng => ?_⟩
    · simp [RowMap.out, normMap, Mat.of_get, TMat.nr, TMat.nc, hi, hj]
    · exact absurd ⟨fun h => absurd rfl h, fun _ _ => trivial⟩ hng
  · simp only [h0, if_false, TMat.mulScalar]
    constructor
    · rintro ⟨h1, _⟩
      rw [TMat.wrap_ok (A := m.val.smul _) (fun hd => ⟨hn, h1 h0 hd⟩)]
      refine congrArg _ (TMat.ext' rfl (Mat.ext' rfl rfl (fun i j hi hj => ?_)))
      have hi' : i < m.val.nr := hi
      have hj' : j < m.val.nc := hj
      simp only [RowMap.out, normMap, Mat.of_get, TMat.nr, TMat.nc, hi', hj', and_self, if_true, Mat.smul_get, h0,
        if_false]
    · intro hng
      have hd : m.ty = .dense ∧ ¬ 0 < m.nc := by
        by_contra hc
        exact hng ⟨fun _ hd => by by_contra h0; exact hc ⟨hd, h0⟩, fun _ _ => trivial⟩
      refine ⟨.valueError, ?_⟩
      simp only [hd.1, TMat.wrap]
      rw [if_pos (Or.inr (by have := hd.2; simp only [TMat.nc] at this; simp only [Mat.smul_nc]; omega))]

/-- Row-wise form of column selection. -/
def colsMap (sel : List ℕ) : RowMap where
  ty t := t
  width _ := sel.length
  row _ x j := match sel[j]? with
    | some c => x c
    | none => 0
  ok t n := (∀ c ∈ sel, c < n) ∧ (t = .dense → 0 < sel.length)
  okRow _ _ := True

theorem models_cols (sel : List ℕ) : (colsMap sel).Models (fun m => m.getCols sel) := by
  intro m hn
  simp only [TMat.getCols]
  have hall : (sel.all (fun c => decide (c < m.nc)) = true) ↔ ∀ c ∈ sel, c < m.nc := by
    simp [List.all_eq_true]
  constructor
  · rintro ⟨⟨h1, h2⟩, _⟩
    rw [if_pos (hall.2 h1), TMat.wrap_ok (A := m.val.selCols sel) (fun hd => ⟨hn, h2 hd⟩)]
    refine congrArg _ (TMat.ext' rfl (Mat.ext' rfl rfl (fun i j hi hj => ?_)))
    have hi' : i < m.val.nr := hi
    have hj' : j < sel.length := hj
    simp only [RowMap.out, colsMap, Mat.of_get, TMat.nr, TMat.nc, hi', hj', and_self, if_true, Mat.selCols_get]
    rfl
  · intro hng
    by_cases h1 : ∀ c ∈ sel, c < m.nc
    · rw [if_pos (hall.2 h1)]
      have hd : m.ty = .dense ∧ ¬ 0 < sel.length := by
        by_contra hc
        exact hng ⟨⟨h1, fun hd => by by_contra h0; exact hc ⟨hd, h0⟩⟩, fun _ _ => trivial⟩
      refine ⟨.valueError, ?_⟩
      simp only [hd.1, TMat.wrap]
      rw [if_pos (Or.inr (by have := hd.2; simp only [Mat.selCols_nc]; omega))]
    · rw [if_neg (fun h => h1 (hall.1 h))]
      exact ⟨_, rfl⟩

/-- Row-wise form of multiplication with a transformation matrix (`nmf`: non-negative input required, result clipped). -/
noncomputable def mulMap (isNmf : Bool) (tm : TMat ℝ) : RowMap where
  ty _ := .dense
  width _ := tm.nc
  row n x j := let y := ∑ k ∈ range n, x k * tm.val.get k j
    if isNmf then (if 0 < y then y else 0) else y
  ok t n := (∃ u, tm.toType t = .ok u) ∧ n = tm.nr ∧ (t = .dense → 0 < tm.nc)
  okRow n x := isNmf = true → ∀ j, j < n → 0 ≤ x j

theorem resolve_to_first (m tm : TMat ℝ) :
    TMat.resolveTypeConflict [m, tm] (some m.ty) =
      match tm.toType m.ty with
      | .ok u => .ok [m, u]
      | .error e => .error e := by
  unfold TMat.resolveTypeConflict
  by_cases hty : tm.ty = m.ty
  · have : TMat.typeConflict [m, tm] = false := by simp [TMat.typeConflict, hty]
    rw [this, ← hty, TMat.toType_self]
    simp
  · have : TMat.typeConflict [m, tm] = true := by simp [TMat.typeConflict, hty]
    rw [this]
    simp only [if_true, TMat.toTypeAll, TMat.toType_self]
    cases tm.toType m.ty <;> rfl

variable {κ : Type}

theorem models_mul (t : DimRedT) (tm : TMat ℝ) :
    (mulMap t.isNmf tm).Models (fun m => (Op.dimred t (some tm) : Op κ).project m) := by
  intro m hn
  have tail : ∀ u, tm.toType m.ty = .ok u → m.nc = tm.nr → (m.ty = .dense → 0 < tm.nc) →
      m.mul u = .ok ⟨m.ty, m.val.mul tm.val⟩ := by
    intro u hu hnc hd
    obtain ⟨h1, h2⟩ := TMat.toType_eq_ok hu
    unfold TMat.mul
    have : m.nc = u.nr := by simp only [TMat.nr, h2]; exact hnc
    rw [if_pos h1.symm, if_pos this, h2, TMat.wrap_ok (A := m.val.mul tm.val) (fun hdd => ⟨hn, hd hdd⟩)]
  constructor
  · rintro ⟨⟨⟨u, hu⟩, hnc, hd⟩, h2⟩
    have hval : (if t.isNmf then (⟨m.ty, m.val.mul tm.val⟩ : TMat ℝ).toNonNegative
        else ⟨m.ty, m.val.mul tm.val⟩).val = ((mulMap t.isNmf tm).out m).val := by
      refine Mat.ext' (by split <;> rfl) (by split <;> rfl) (fun i j hi hj => ?_)
      cases hnm : t.isNmf with
      | true =>
        rw [hnm] at hi hj
        have hi' : i < m.val.nr := hi
        have hj' : j < tm.val.nc := hj
        simp only [if_true, TMat.toNonNegative]
        rw [Mat.map_get_lt _ _ (by exact hi') (by exact hj')]
        simp only [RowMap.out, mulMap, Mat.of_get, TMat.nr, TMat.nc, hi', hj', and_self, if_true, Mat.mul_get]
        congr
      | false =>
        rw [hnm] at hi hj
        have hi' : i < m.val.nr := hi
        have hj' : j < tm.val.nc := hj
        simp only [RowMap.out, mulMap, Mat.of_get, TMat.nr, TMat.nc, hi', hj', and_self, if_true, Mat.mul_get,
          Bool.false_eq_true, if_false]
    have hpos : t.isNmf = true → m.assertPositive = .ok () := fun hnm =>
      (assertPositive_rows m).1.2 (fun i hi => h2 i hi hnm)
    unfold Op.project
    simp only
    have key : (do
        let l ← TMat.resolveTypeConflict [m, tm] (some m.ty)
        match l with
          | [m', tm'] => do
            let r ← m'.mul tm'
            (if t.isNmf = true then r.toNonNegative else r).toDense
          | _ => (.error .valueError : Py (TMat ℝ))) = .ok ((mulMap t.isNmf tm).out m) := by
      rw [resolve_to_first, hu]
      simp only [ok_bind, tail u hu hnc hd, TMat.toDense]
      exact congrArg _ (TMat.ext' rfl hval)
    by_cases hnm : t.isNmf = true
    · simp only [hnm, if_true, hpos hnm, ok_bind] at key ⊢
      exact key
    · simp only [hnm, if_false] at key ⊢
      exact key
  · intro hng
    by_cases hbad : t.isNmf = true ∧ ¬ ∀ i, i < m.nr → ∀ j, j < m.nc → 0 ≤ m.val.get i j
    · refine ⟨.valueError, ?_⟩
      unfold Op.project
      simp only [hbad.1, if_true, (assertPositive_rows m).2 hbad.2, error_bind]
    · have hrows : ∀ i, i < m.nr → (mulMap t.isNmf tm).okRow m.nc (m.val.get i) := by
        intro i hi hnm
        by_contra hc
        exact hbad ⟨hnm, fun h => hc (h i hi)⟩
      have hok : ¬ (mulMap t.isNmf tm).ok m.ty m.nc := fun h => hng ⟨h, hrows⟩
      have key : ∃ e, (do
          let l ← TMat.resolveTypeConflict [m, tm] (some m.ty)
          match l with
            | [m', tm'] => do
              let r ← m'.mul tm'
              (if t.isNmf = true then r.toNonNegative else r).toDense
            | _ => (.error .valueError : Py (TMat ℝ))) = .error e := by
        rw [resolve_to_first]
        rcases hu : tm.toType m.ty with e | u
        · exact ⟨e, rfl⟩
        · obtain ⟨h1, h2⟩ := TMat.toType_eq_ok hu
          simp only [ok_bind]
          unfold TMat.mul
          rw [if_pos h1.symm]
          by_cases hnc : m.nc = u.nr
          · rw [if_pos hnc, h2]
            have hd : m.ty = .dense ∧ ¬ 0 < tm.nc := by
              by_contra hc
              refine hok ⟨⟨u, hu⟩, ?_, fun hd => by by_contra h0; exact hc ⟨hd, h0⟩⟩
              rw [hnc]; simp only [TMat.nr, h2]
            refine ⟨.valueError, ?_⟩
            have hw : TMat.wrap m.ty (m.val.mul tm.val) = .error .valueError := by
              rw [hd.1]
              unfold TMat.wrap
              simp only
              rw [if_pos (Or.inr (by have := hd.2; simp only [TMat.nc] at this; simp only [Mat.mul_nc]; omega))]
            rw [hw]; rfl
          · rw [if_neg hnc]
            exact ⟨_, rfl⟩
      obtain ⟨e, he⟩ := key
      refine ⟨e, ?_⟩
      unfold Op.project
      simp only
      by_cases hnm : t.isNmf = true
      · have hpos := (assertPositive_rows m).1.2 (fun i hi => hrows i hi hnm)
        simp only [hnm, if_true, hpos, ok_bind] at he ⊢
        exact he
      · simp only [hnm, if_false] at he ⊢
        exact he

end Dissect
