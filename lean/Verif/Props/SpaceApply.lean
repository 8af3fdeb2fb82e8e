import Verif.Lemmas.Project
import Verif.Props.Space
import Verif.Props.Scaling

/-! # `Space.apply` and `set_cooccurrence_matrix` (C05, C07, C72, C73) -/

namespace Dissect
open Finset
variable {κ : Type} [DecidableEq κ]

/-! ## C05 -/

/-- The operation object wraps the transformation `t`. -/
def Op.Wraps : Op κ → Trans → Prop
  | .scaling s _, .scaling s' => s = s'
  | .dimred d _, .dimred d' => d = d'
  | .featsel k c _ _, .featsel k' c' => k = k' ∧ c = c'
  | _, _ => False

/-- The operation has been applied: it holds the state its projection needs. -/
def Op.Applied : Op κ → Prop
  | .scaling s st => s.usesStats = true → st ≠ none
  | .dimred _ tm => tm ≠ none
  | .featsel _ _ sel orig => sel ≠ none ∧ orig ≠ none

theorem opApply_scaling {env : Env} {st : ScalingT} {m r : TMat ℝ} {op : Op κ}
    (h : ((Trans.scaling st).createOp : Op κ).apply env m = .ok (op, r)) :
    op = .scaling st (if st.usesStats then some (st.columnStats m) else none) ∧ st.apply m none = .ok r := by
  simp only [Trans.createOp, Op.apply, bind_eq_ok, pure_eq_ok] at h
  obtain ⟨r', hr, h⟩ := h
  have := ok_inj h
  simp only [Prod.mk.injEq] at this
  exact ⟨this.1.symm, by rw [hr, this.2]⟩

theorem opApply_dimred {env : Env} {dt : DimRedT} {m r : TMat ℝ} {op : Op κ}
    (h : ((Trans.dimred dt).createOp : Op κ).apply env m = .ok (op, r)) :
    ∃ r0 tm, dt.apply env m = .ok (r0, tm) ∧ op = .dimred dt (some tm) ∧ r = ⟨.dense, r0.val⟩ := by
  simp only [Trans.createOp, Op.apply, bind_eq_ok, pure_eq_ok] at h
  obtain ⟨⟨r0, tm⟩, hr, d, hd, h⟩ := h
  have := ok_inj h
  simp only [Prod.mk.injEq] at this
  refine ⟨r0, tm, hr, this.1.symm, ?_⟩
  rw [← this.2]
  simp only [TMat.toDense] at hd
  exact (ok_inj hd).symm

theorem opApply_featsel {env : Env} {k : ℕ} {c : Crit} {m r : TMat ℝ} {op : Op κ}
    (h : ((Trans.featsel k c).createOp : Op κ).apply env m = .ok (op, r)) :
    ∃ sel, topFeatureSelection k c m = .ok (r, sel) ∧ op = .featsel k c (some sel) none := by
  simp only [Trans.createOp, Op.apply, bind_eq_ok, pure_eq_ok] at h
  obtain ⟨⟨r0, sel⟩, hr, h⟩ := h
  have := ok_inj h
  simp only [Prod.mk.injEq] at this
  exact ⟨sel, by rw [hr, this.2], this.1.symm⟩

theorem topFeatureSelection_ok {k : ℕ} {c : Crit} {m r : TMat ℝ} {sel : List ℕ}
    (h : topFeatureSelection k c m = .ok (r, sel)) :
    BestColumns c m.val k sel ∧ m.getCols sel = .ok r ∧ r = ⟨m.ty, m.val.selCols sel⟩ := by
  rw [topFeatureSelection_eq] at h
  have h' : (m.getCols ((sortedPermutation (⟨[1, m.nc], (List.range m.nc).map (colQuantity c m.val)⟩ : Arr ℝ)).take
      (min k m.nc)) >>= (fun r => (.ok (r, (sortedPermutation
        (⟨[1, m.nc], (List.range m.nc).map (colQuantity c m.val)⟩ : Arr ℝ)).take (min k m.nc)) :
        Py (TMat ℝ × List ℕ)))) = .ok (r, sel) := h
  rw [bind_eq_ok] at h'
  obtain ⟨r', hr', h'⟩ := h'
  have := ok_inj h'
  simp only [Prod.mk.injEq] at this
  obtain ⟨rfl, rfl⟩ := this
  refine ⟨sel_best c m k, hr', ?_⟩
  unfold TMat.getCols at hr'
  split at hr'
  · exact (TMat.wrap_eq_ok hr').1
  · cases hr'

/-- **C05** row labels are kept, exactly one operation — the applied one — is appended, the result is well formed. -/
theorem C05_apply (env : Env) (s s' : Space κ) (t : Trans) (h : s.apply env t = .ok s') :
    s'.WF ∧ s'.id2row = s.id2row ∧ s'.row2id = s.row2id ∧ s'.elemShape = [s'.mat.nc] ∧
    ∃ op, s'.ops = s.ops ++ [op] ∧ op.Wraps t ∧ op.Applied := by
  obtain ⟨op, m, hop, op', h1, h2, h3, h4, h5, h6, h7, h8, _⟩ := apply_eq_ok h
  refine ⟨h6, h3, h4, by rw [h2]; exact h5, op', h1, ?_⟩
  cases t with
  | scaling st =>
    obtain ⟨rfl, _⟩ := opApply_scaling hop
    simp only at h7
    subst h7
    exact ⟨rfl, fun hu => by simp [hu]⟩
  | dimred dt =>
    obtain ⟨r0, tm, _, rfl, _⟩ := opApply_dimred hop
    simp only at h7
    subst h7
    exact ⟨rfl, by simp [Op.Applied]⟩
  | featsel k c =>
    obtain ⟨sel, _, rfl⟩ := opApply_featsel hop
    simp only at h7
    subst h7
    exact ⟨⟨rfl, rfl⟩, by simp [Op.Applied]⟩

theorem applyT_shape {st : ScalingT} {m r : TMat ℝ} (hr : 0 < m.nr) (h : st.apply m none = .ok r) :
    r.ty = m.ty ∧ r.nr = m.nr ∧ r.nc = m.nc := by
  have key : ∀ (R : RowMap) (g : TMat ℝ → Py (TMat ℝ)), R.Models g → (∀ t, R.ty t = t) → (∀ n, R.width n = n) →
      g m = .ok r → r.ty = m.ty ∧ r.nr = m.nr ∧ r.nc = m.nc := by
    intro R g hm h1 h2 hg
    obtain ⟨_, rfl⟩ := hm.eq_ok hr hg
    exact ⟨h1 _, rfl, h2 _⟩
  cases st with
  | epmi => exact key _ _ (models_epmi m.sum0) (fun _ => rfl) (fun _ => rfl) h
  | ppmi => exact key _ _ (models_ppmi m.sum0) (fun _ => rfl) (fun _ => rfl) h
  | plmi => exact key _ _ (models_plmi m.sum0) (fun _ => rfl) (fun _ => rfl) h
  | plog => exact key _ _ models_plogW (fun _ => rfl) (fun _ => rfl) h
  | rowNorm c => exact key _ _ (models_rowNorm c) (fun _ => rfl) (fun _ => rfl) h
  | norm c => exact key _ _ (models_norm c (normTotal c m)) (fun _ => rfl) (fun _ => rfl) h

/-- **C05** scalings keep the column labels and the shape. -/
theorem C05_scaling_keeps_columns (env : Env) (s s' : Space κ) (st : ScalingT) (hr : 0 < s.mat.nr)
    (h : s.apply env (.scaling st) = .ok s') :
    s'.id2col = s.id2col ∧ s'.col2id = s.col2id ∧ s'.mat.nr = s.mat.nr ∧ s'.mat.nc = s.mat.nc ∧
      st.apply s.mat none = .ok s'.mat := by
  obtain ⟨op, m, hop, op', h1, h2, h3, h4, h5, h6, h7, h8, _⟩ := apply_eq_ok h
  obtain ⟨rfl, ha⟩ := opApply_scaling hop
  simp only at h7
  subst h7
  simp only [stepCols] at h8
  have := ok_inj h8
  simp only [Prod.mk.injEq] at this
  have hsh := applyT_shape hr ha
  exact ⟨this.1.symm, this.2.symm, by rw [h2]; exact hsh.2.1, by rw [h2]; exact hsh.2.2, by rw [h2]; exact ha⟩

/-- **C05** dimensionality reductions drop the column labels. -/
theorem C05_dimred_drops_columns (env : Env) (s s' : Space κ) (dt : DimRedT)
    (h : s.apply env (.dimred dt) = .ok s') :
    s'.id2col = [] ∧ s'.col2id = Dict.empty ∧ s'.mat.ty = .dense := by
  obtain ⟨op, m, hop, op', h1, h2, h3, h4, h5, h6, h7, h8, _⟩ := apply_eq_ok h
  obtain ⟨r0, tm, _, rfl, hm⟩ := opApply_dimred hop
  simp only at h7
  subst h7
  simp only [stepCols] at h8
  have := ok_inj h8
  simp only [Prod.mk.injEq] at this
  exact ⟨this.1.symm, this.2.symm, by rw [h2, hm]⟩

/-- **C05** feature selection: every remaining column is a column of the source, unchanged, under its old label; no
source column occurs twice. -/
theorem C05_featsel_keeps_labels (env : Env) (s s' : Space κ) (k : ℕ) (c : Crit) (hwf : s.WF)
    (h : s.apply env (.featsel k c) = .ok s') :
    s'.mat.nr = s.mat.nr ∧ s'.mat.nc = min k s.mat.nc ∧
    (s.id2col = [] → s'.id2col = []) ∧ (s.id2col ≠ [] → s'.id2col.length = s'.mat.nc) ∧
    ∃ src : ℕ → ℕ, (∀ j, j < s'.mat.nc → src j < s.mat.nc ∧ (∀ i, s'.mat.val.get i j = s.mat.val.get i (src j)) ∧
      (s.id2col ≠ [] → ∃ w, s'.id2col[j]? = some w ∧ s.id2col[src j]? = some w)) ∧
      (∀ j j', j < s'.mat.nc → j' < s'.mat.nc → src j = src j' → j = j') := by
  obtain ⟨op, m, hop, op', h1, h2, h3, h4, h5, h6, h7, h8, _⟩ := apply_eq_ok h
  obtain ⟨sel, ht, rfl⟩ := opApply_featsel hop
  obtain ⟨hbest, _, hm⟩ := topFeatureSelection_ok ht
  simp only at h7
  subst h7
  simp only [stepCols] at h8
  have hnc : s'.mat.nc = sel.length := by rw [h2, hm]; rfl
  have hcols : (s.id2col = [] → s'.id2col = []) ∧
      (s.id2col ≠ [] → List.Forall₂ (fun i x => s.id2col[i]? = some x) sel s'.id2col) := by
    cases hcol : s.id2col with
    | nil =>
      rw [hcol] at h8
      simp only [Space.selectedColumns] at h8
      have := ok_inj h8
      simp only [Prod.mk.injEq] at this
      exact ⟨fun _ => this.1.symm, fun hne => absurd rfl hne⟩
    | cons o os =>
      rw [hcol] at h8
      simp only [Space.selectedColumns, bind_eq_ok, pure_eq_ok] at h8
      obtain ⟨cols, hp, d, hd, h8⟩ := h8
      have := ok_inj h8
      simp only [Prod.mk.injEq] at this
      refine ⟨fun hne => by simp at hne, fun _ => ?_⟩
      rw [← this.1]
      exact pickLabels_eq_ok hp
  refine ⟨by rw [h2, hm]; rfl, by rw [hnc]; exact hbest.count, hcols.1, fun hne => ?_,
    fun j => sel.getD j 0, fun j hj => ?_, fun j j' hj hj' he => ?_⟩
  · rw [hnc, (hcols.2 hne).length_eq]
  · have hj' : j < sel.length := by rw [← hnc]; exact hj
    have hget : sel[j]? = some sel[j] := List.getElem?_eq_getElem hj'
    have hgd : sel.getD j 0 = sel[j] := by simp [List.getD_eq_getElem?_getD, hget]
    beta_reduce
    rw [hgd]
    refine ⟨hbest.inRange _ (List.getElem_mem hj'), fun i => ?_, fun hne => ?_⟩
    · rw [h2, hm]; exact Mat.selCols_get_some hget i
    · have hf := hcols.2 hne
      have hlen := hf.length_eq
      have := (List.forall₂_iff_get.1 hf).2 j hj' (by omega)
      simp only [List.get_eq_getElem] at this
      exact ⟨_, List.getElem?_eq_getElem (by omega), this⟩
  · have hj1 : j < sel.length := by rw [← hnc]; exact hj
    have hj2 : j' < sel.length := by rw [← hnc]; exact hj'
    simp only [List.getD_eq_getElem?_getD, List.getElem?_eq_getElem hj1, List.getElem?_eq_getElem hj2,
      Option.getD_some] at he
    exact (List.Nodup.getElem_inj_iff hbest.distinct).1 he

/-- **C05** when it succeeds: every scaling on a non-empty non-negative matrix, and feature selection on a non-empty
matrix of plain vectors. -/
theorem C05_apply_total (env : Env) (s : Space κ) (h : s.WF) (hr : 0 < s.mat.nr) (hc : 0 < s.mat.nc) :
    (∀ st, NonNegative s.mat.val → ∃ s', s.apply env (.scaling st) = .ok s') ∧
    (∀ k c, 0 < k → s.elemShape.length ≤ 1 → ∃ s', s.apply env (.featsel k c) = .ok s') := by
  constructor
  · intro st hnn
    have hok : ∃ r, st.apply s.mat none = .ok r := by
      cases st with
      | epmi => exact ⟨_, (C16_epmi s.mat hr hc hnn).choose_spec.1⟩
      | ppmi => exact ⟨_, (C16_ppmi s.mat hr hc hnn).choose_spec.1⟩
      | plmi => exact ⟨_, (C16_plmi s.mat hr hc hnn).choose_spec.1⟩
      | plog => exact ⟨_, (C17_plog s.mat hr hc).choose_spec.1⟩
      | rowNorm c => exact ⟨_, (C18_row_normalization c s.mat hr hc).choose_spec.1⟩
      | norm c => exact ⟨_, (C19_normalization c s.mat hr hc).choose_spec.1⟩
    obtain ⟨r, hok⟩ := hok
    obtain ⟨_, e2, e3⟩ := applyT_shape hr hok
    unfold Space.apply
    simp only [Trans.createOp, Op.apply, hok, ok_bind, pure_eq_ok]
    exact ⟨_, Space.new_ok (Space.resolveMap_some h.rows) (Space.resolveMap_some h.cols)
      (by rw [e2]; exact h.nrows) (fun hne => by rw [e3]; exact h.ncols hne) (by simp)⟩
  · intro k c hk hsh
    obtain ⟨r, sel, ht, hb, e1, e2, e3, _⟩ := C20_top_feature_selection k c s.mat hk hr hc
    unfold Space.apply
    have ha : s.assert1dim = .ok () := by
      unfold Space.assert1dim
      rw [if_neg (by omega)]
    simp only [Trans.createOp, Op.apply, ht, ok_bind, pure_eq_ok, ha]
    have hsel : ∃ cols d, Space.selectedColumns (some s.id2col) (some sel) = .ok (cols, d) ∧ Labels cols d ∧
        (cols ≠ [] → r.nc = cols.length) := by
      cases hcol : s.id2col with
      | nil => exact ⟨[], Dict.empty, rfl, Labels.empty, fun hne => absurd rfl hne⟩
      | cons o os =>
        have hlen : s.mat.nc = (o :: os).length := by
          rw [← hcol]; exact h.ncols (by rw [hcol]; simp)
        obtain ⟨cols, hp⟩ := pickLabels_ok (labels := o :: os) (is := sel)
          (fun i hi => by rw [← hlen]; exact hb.inRange i hi)
        have hf := pickLabels_eq_ok hp
        have hnd : cols.Nodup := forall₂_labels_nodup (hcol ▸ h.cols.nodup) hb.distinct hf
        obtain ⟨d, hd⟩ := list2dict_of_nodup hnd
        refine ⟨cols, d, ?_, (list2dict_ok hd).1, fun _ => ?_⟩
        · simp only [Space.selectedColumns, hp, ok_bind, hd]
          rfl
        · rw [e3, ← hf.length_eq]
          exact hb.count.symm
    obtain ⟨cols, d, hs, hlab, hl⟩ := hsel
    simp only [hs, ok_bind]
    exact ⟨_, Space.new_ok (Space.resolveMap_some h.rows) (Space.resolveMap_some hlab)
      (by rw [e2]; exact h.nrows) hl (by simp)⟩

example (env : Env) : ∃ s s' : Space String, s.id2col = ["a", "b", "c"] ∧ s.WF ∧
    s.apply env (.scaling .ppmi) = .ok s' := by
  obtain ⟨s, hwf, hm, hr, hc, ho, hsh⟩ := ex_space .sparse
  have hnn : NonNegative s.mat.val := by
    rw [hm]
    intro i j hi hj
    have hi' : i < 2 := hi
    have hj' : j < 3 := hj
    show 0 ≤ (Mat.of 2 3 _).get i j
    rw [Mat.of_get_lt hi' hj']
    exact Nat.cast_nonneg _
  obtain ⟨s', hs'⟩ := (C05_apply_total env s hwf (by rw [hm]; simp [exMat, TMat.nr])
    (by rw [hm]; simp [exMat, TMat.nc])).1 .ppmi hnn
  exact ⟨s, s', hc, hwf, hs'⟩

/-! ## C07 -/

/-- **C07** (part) a matrix with the wrong number of rows is refused with `ValueError`. -/
theorem C07_wrong_rows_partial (s : Space κ) (h : s.WF) (m : TMat ℝ) (hm : m.nr ≠ s.mat.nr) :
    s.setMatrix m = .error .valueError := by
  unfold Space.setMatrix assertShapeConsistent
  have h1 : m.nr ≠ s.row2id.len := by
    rw [h.rows.len, ← h.nrows]; exact hm
  rw [if_pos (Or.inl h1)]
  rfl

/-- **C07** (part) exactly when a replacement is accepted: the number of rows must equal both the number of row labels
and the number of *column* labels. -/
theorem C07_accepts_iff_partial (s : Space κ) (h : s.WF) (hr : s.id2row ≠ []) (m : TMat ℝ) :
    (∃ s', s.setMatrix m = .ok s') ↔
      m.nr = s.id2row.length ∧ m.nr = s.id2col.length ∧ m.nc = s.id2row.length ∧ m.nc = s.id2col.length := by
  unfold Space.setMatrix assertShapeConsistent
  rw [h.rows.len, h.cols.len]
  have hpos := List.length_pos_iff.2 hr
  constructor
  · rintro ⟨s', hs⟩
    split at hs
    · cases hs
    · split at hs
      · cases hs
      · rename_i h1 h2
        omega
  · rintro ⟨h1, h2, h3, h4⟩
    rw [if_neg (by omega), if_neg (by omega)]
    exact ⟨_, rfl⟩

/-- **C07** (part) an accepted matrix is the one used afterwards and the labels stay. -/
theorem C07_uses_new_matrix_partial (s s' : Space κ) (m : TMat ℝ) (h : s.setMatrix m = .ok s') :
    s' = { s with mat := m } := by
  simp only [Space.setMatrix, bind_eq_ok, pure_eq_ok] at h
  obtain ⟨_, _, h⟩ := h
  exact (ok_inj h).symm

/-- **C07** is false in general: a well formed 2×3 space refuses its own matrix, because the label structures are
passed to the check in the wrong order. -/
theorem C07_refuted : ∃ s : Space String, s.WF ∧ s.setMatrix s.mat = .error .valueError := by
  obtain ⟨s, hwf, hm, hr, hc, _⟩ := ex_space .dense
  refine ⟨s, hwf, ?_⟩
  unfold Space.setMatrix assertShapeConsistent
  rw [hwf.rows.len, hwf.cols.len, hr, hc, hm]
  rfl

/-! ## C72 -/

/-- **C72** (part) reducing a space of matrix-valued elements never succeeds. -/
theorem C72_matrix_elements_partial (env : Env) (s : Space κ) (h : 1 < s.elemShape.length) (t : Trans)
    (ht : ∀ st, t ≠ .scaling st) : ∀ s', s.apply env t ≠ .ok s' := by
  intro s' hs
  obtain ⟨op, m, hop, op', _, _, _, _, _, _, _, _, hd⟩ := apply_eq_ok hs
  rcases hd with ⟨st, u, rfl⟩ | hd
  · cases t with
    | scaling st => exact ht st rfl
    | dimred dt =>
      obtain ⟨_, _, _, h1, _⟩ := opApply_dimred hop
      cases h1
    | featsel k c =>
      obtain ⟨_, _, h1⟩ := opApply_featsel hop
      cases h1
  · omega

/-- **C72** (part) the exception, exactly: for every space of matrix-valued elements, feature selection, and every
decomposition whose numeric part succeeds, raise `TypeError`. -/
theorem C72_type_error_partial (env : Env) (s : Space κ) (h : 1 < s.elemShape.length) (hr : 0 < s.mat.nr) (hc : 0 < s.mat.nc) :
    (∀ k c, 0 < k → s.apply env (.featsel k c) = .error .typeError) ∧
    ∀ (dt : DimRedT) (red : TMat ℝ) (V : TMat ℝ), dt.apply env s.mat = .ok (red, V) →
      s.apply env (.dimred dt) = .error .typeError := by
  constructor
  · intro k c hk
    obtain ⟨r, sel, ht, _⟩ := C20_top_feature_selection k c s.mat hk hr hc
    unfold Space.apply
    simp only [Trans.createOp, Op.apply, ht, ok_bind, pure_eq_ok]
    simp [Space.assert1dim, h]
  · intro dt red V hd
    unfold Space.apply
    simp only [Trans.createOp, Op.apply, hd, ok_bind, pure_eq_ok, TMat.toDense]
    simp [Space.assert1dim, h]

/-- **C72** is false: the exception is a `TypeError` from formatting the message, not `IllegalOperationError`. -/
theorem C72_refuted (env : Env) : ∃ s : Space String, s.WF ∧ 1 < s.elemShape.length ∧
    s.apply env (.featsel 1 .sum) = .error .typeError := by
  obtain ⟨s, hwf, hm, hr, hc, ho, hsh⟩ := ex_space .dense
  refine ⟨s, hwf, by rw [hsh]; simp, ?_⟩
  obtain ⟨r, sel, ht, _⟩ := C20_top_feature_selection 1 .sum s.mat (by omega)
    (by rw [hm]; simp [exMat, TMat.nr]) (by rw [hm]; simp [exMat, TMat.nc])
  unfold Space.apply
  simp only [Trans.createOp, Op.apply, ht, ok_bind, pure_eq_ok]
  simp [Space.assert1dim, hsh]

end Dissect
