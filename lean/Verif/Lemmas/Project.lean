import Verif.Lemmas.Scaling
import Verif.Lemmas.Space

/-! # Projection through a list of operations -/

namespace Dissect
open Finset
variable {κ : Type} [DecidableEq κ]

/-- The row-wise form of `project` for an operation in a given state. -/
noncomputable def Op.rowMap : Op κ → RowMap
  | .scaling .epmi (some (.cols a)) => epmiMap a
  | .scaling .ppmi (some (.cols a)) => (epmiMap a).comp plogMap
  | .scaling .plmi (some (.cols a)) => plmiMap a
  | .scaling (.norm _) (some (.num x)) => normMap x
  | .scaling .plog _ => plogWMap
  | .scaling (.rowNorm c) _ => rowNormMap c
  | .scaling _ _ => RowMap.fail
  | .dimred t (some tm) => mulMap t.isNmf tm
  | .dimred _ none => RowMap.fail
  | .featsel _ _ (some sel) _ => colsMap sel
  | .featsel _ _ none _ => RowMap.fail

omit [DecidableEq κ] in
theorem Op.models_project (op : Op κ) : op.rowMap.Models op.project := by
  cases op with
  | scaling t st =>
    cases t with
    | epmi => cases st with
      | none => exact RowMap.models_fail (fun m => ⟨_, rfl⟩)
      | some st => cases st with
        | cols a => exact models_epmi a
        | num x => exact RowMap.models_fail (fun m => ⟨_, rfl⟩)
    | ppmi => cases st with
      | none => exact RowMap.models_fail (fun m => ⟨_, rfl⟩)
      | some st => cases st with
        | cols a => exact models_ppmi a
        | num x => exact RowMap.models_fail (fun m => ⟨_, rfl⟩)
    | plmi => cases st with
      | none => exact RowMap.models_fail (fun m => ⟨_, rfl⟩)
      | some st => cases st with
        | cols a => exact models_plmi a
        | num x => exact RowMap.models_fail (fun m => ⟨_, rfl⟩)
    | plog => cases st with
      | none => exact models_plogW
      | some st => exact models_plogW
    | rowNorm c => cases st with
      | none => exact models_rowNorm c
      | some st => exact models_rowNorm c
    | norm c => cases st with
      | none => exact RowMap.models_fail (fun m => ⟨_, rfl⟩)
      | some st => cases st with
        | cols a => exact RowMap.models_fail (fun m => ⟨_, rfl⟩)
        | num x => exact models_norm c x
  | dimred t tm => cases tm with
    | none => exact RowMap.models_fail (fun m => ⟨_, rfl⟩)
    | some tm => exact models_mul t tm
  | featsel k c sel orig => cases sel with
    | none => exact RowMap.models_fail (fun m => ⟨_, rfl⟩)
    | some sel => exact models_cols sel

/-- Matrix part of `_project_core_operations`. -/
noncomputable def projAll : List (Op κ) → TMat ℝ → Py (TMat ℝ)
  | [], m => .ok m
  | op :: ops, m => op.project m >>= projAll ops

/-- Column effect of one operation. -/
noncomputable def stepCols (op : Op κ) (cd : List κ × Dict κ ℤ) : Py (List κ × Dict κ ℤ) :=
  match op with
  | .scaling _ _ => .ok cd
  | .dimred _ _ => .ok ([], Dict.empty)
  | .featsel _ _ sel orig => Space.selectedColumns orig sel

/-- Column part of `_project_core_operations`. -/
noncomputable def allCols : List (Op κ) → List κ × Dict κ ℤ → Py (List κ × Dict κ ℤ)
  | [], cd => .ok cd
  | op :: ops, cd => stepCols op cd >>= allCols ops

/-- Row-wise form of the whole projection. -/
noncomputable def opsMap : List (Op κ) → RowMap
  | [] => RowMap.id
  | op :: ops => op.rowMap.comp (opsMap ops)

omit [DecidableEq κ] in
theorem models_projAll (ops : List (Op κ)) : (opsMap ops).Models (projAll ops) := by
  induction ops with
  | nil => exact RowMap.models_id
  | cons op ops ih => exact op.models_project.comp ih

theorem projectOps_spec (ops : List (Op κ)) : ∀ (c : List κ) (d : Dict κ ℤ) (m : TMat ℝ),
    (∀ r, (Periph.projectOps c d m ops).2 = .ok r →
      projAll ops m = .ok r ∧ allCols ops (c, d) = .ok (Periph.projectOps c d m ops).1) ∧
    (∀ r cd, projAll ops m = .ok r → allCols ops (c, d) = .ok cd → Periph.projectOps c d m ops = (cd, .ok r)) := by
  induction ops with
  | nil =>
    intro c d m
    refine ⟨fun r h => ⟨h, rfl⟩, fun r cd h1 h2 => ?_⟩
    simp only [projAll] at h1
    simp only [allCols] at h2
    obtain rfl := ok_inj h1
    obtain rfl := ok_inj h2
    rfl
  | cons op ops ih =>
    intro c d m
    have hunf : Periph.projectOps c d m (op :: ops) =
        match stepCols op (c, d) with
        | .error e => ((c, d), .error e)
        | .ok (c', d') => match op.project m with
          | .error e => ((c', d'), .error e)
          | .ok m' => Periph.projectOps c' d' m' ops := by
      cases op <;> rfl
    rw [hunf]
    cases hs : stepCols op (c, d) with
    | error e =>
      refine ⟨fun r h => by simp at h, fun r cd _ h2 => ?_⟩
      simp only [allCols, hs, error_bind] at h2
      cases h2
    | ok cd =>
      obtain ⟨c', d'⟩ := cd
      cases hp : op.project m with
      | error e =>
        refine ⟨fun r h => by simp at h, fun r cd h1 _ => ?_⟩
        simp only [projAll, hp, error_bind] at h1
        cases h1
      | ok m' =>
        obtain ⟨i1, i2⟩ := ih c' d' m'
        simp only [projAll, allCols, hp, hs, ok_bind]
        exact ⟨i1, i2⟩

omit [DecidableEq κ] in
theorem projAll_append (ops : List (Op κ)) (op : Op κ) (m : TMat ℝ) :
    projAll (ops ++ [op]) m = projAll ops m >>= op.project := by
  induction ops generalizing m with
  | nil =>
    simp only [List.nil_append, projAll, ok_bind]
    cases op.project m <;> rfl
  | cons o ops ih =>
    simp only [List.cons_append, projAll]
    cases o.project m with
    | error e => rfl
    | ok m' => simp only [ok_bind, ih]

theorem allCols_append (ops : List (Op κ)) (op : Op κ) (cd : List κ × Dict κ ℤ) :
    allCols (ops ++ [op]) cd = allCols ops cd >>= stepCols op := by
  induction ops generalizing cd with
  | nil =>
    simp only [List.nil_append, allCols, ok_bind]
    cases stepCols op cd <;> rfl
  | cons o ops ih =>
    simp only [List.cons_append, allCols]
    cases stepCols o cd with
    | error e => rfl
    | ok cd' => simp only [ok_bind, ih]

/-- What `Space.apply` does, in one statement: the matrix, the operation, the labels. -/
theorem apply_eq_ok {env : Env} {s s' : Space κ} {t : Trans} (h : s.apply env t = .ok s') :
    ∃ op m, (t.createOp : Op κ).apply env s.mat = .ok (op, m) ∧
    ∃ op', s'.ops = s.ops ++ [op'] ∧ s'.mat = m ∧ s'.id2row = s.id2row ∧ s'.row2id = s.row2id ∧
      s'.elemShape = [m.nc] ∧ s'.WF ∧
      (match op with
        | .featsel k c sel _ => op' = .featsel k c sel (some s.id2col)
        | o => op' = o) ∧
      stepCols op' (s.id2col, s.col2id) = .ok (s'.id2col, s'.col2id) ∧
      ((∃ st u, op = .scaling st u) ∨ s.elemShape.length ≤ 1) := by
  simp only [Space.apply, bind_eq_ok] at h
  obtain ⟨⟨op, m⟩, hop, h⟩ := h
  refine ⟨op, m, hop, ?_⟩
  have hassert : ∀ u, s.assert1dim = .ok u → s.elemShape.length ≤ 1 := by
    intro u hu
    unfold Space.assert1dim at hu
    split at hu
    · cases hu
    · omega
  cases op with
  | scaling st u =>
    obtain ⟨e1, e2, e3, e4, e5, e6, e7, hwf⟩ := Space.new_eq_ok h
    have r1 := (Space.resolveMap_eq_ok e6).2 _ rfl
    have r2 := (Space.resolveMap_eq_ok e7).2 _ rfl
    refine ⟨_, e4, e1, e2, r1, e5, hwf, rfl, ?_, Or.inl ⟨st, u, rfl⟩⟩
    simp only [stepCols, e3, r2]
  | dimred dt u =>
    simp only [bind_eq_ok] at h
    obtain ⟨_, ha, h⟩ := h
    obtain ⟨e1, e2, e3, e4, e5, e6, e7, hwf⟩ := Space.new_eq_ok h
    have r1 := (Space.resolveMap_eq_ok e6).2 _ rfl
    have r2 := (Space.resolveMap_eq_ok e7).2 _ rfl
    refine ⟨_, e4, e1, e2, r1, e5, hwf, rfl, ?_, Or.inr (hassert _ ha)⟩
    simp only [stepCols, e3, r2]
  | featsel k c sel orig =>
    simp only [bind_eq_ok] at h
    obtain ⟨_, ha, ⟨cols, d⟩, hsel, h⟩ := h
    obtain ⟨e1, e2, e3, e4, e5, e6, e7, hwf⟩ := Space.new_eq_ok h
    have r1 := (Space.resolveMap_eq_ok e6).2 _ rfl
    have r2 := (Space.resolveMap_eq_ok e7).2 _ rfl
    refine ⟨_, e4, e1, e2, r1, e5, hwf, rfl, ?_, Or.inr (hassert _ ha)⟩
    simp only [stepCols, e3, r2]
    exact hsel

/-- The operation kept in the space is the operation applied (its `original_columns` filled in). -/
theorem project_same {op op' : Op κ} {cols : List κ}
    (h : match op with
        | .featsel k c sel _ => op' = .featsel k c sel (some cols)
        | o => op' = o) (m : TMat ℝ) : op'.project m = op.project m := by
  cases op with
  | scaling t u => simp only at h; rw [h]
  | dimred t u => simp only at h; rw [h]
  | featsel k c sel orig => simp only at h; rw [h]; rfl

end Dissect
