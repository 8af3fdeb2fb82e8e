import Verif.Props.PeriphBatch

/-! # Operation objects (C27) and failed `add_rows` calls (C28) -/

namespace Dissect
open Finset
variable {κ : Type} [DecidableEq κ]

/-! ## C27 -/

/-- A method call on an operation object. -/
inductive OpCall
  | apply (m : TMat ℝ)
  | project (m : TMat ℝ)

/-- The operation object after a call, and the outcome (`operation.py:49-96, 112-167, 184-224`). -/
noncomputable def Op.call (env : Env) (op : Op κ) : OpCall → Op κ × Py (TMat ℝ)
  | .apply m => match op.apply env m with
    | .ok (op', r) => (op', .ok r)
    | .error e => (op, .error e)
  | .project m => (op, op.project m)

/-- The operation object after a sequence of calls. -/
noncomputable def Op.after (env : Env) (op : Op κ) : List OpCall → Op κ
  | [] => op
  | c :: cs => (op.call env c).1.after env cs

/-- Transformations whose operation objects keep something after `apply`: all but `PlogWeighting` and
`RowNormalization`. -/
def Trans.Remembers : Trans → Prop
  | .scaling t => t.usesStats = true
  | _ => True

theorem Op.after_append (env : Env) (op : Op κ) (a b : List OpCall) :
    op.after env (a ++ b) = (op.after env a).after env b := by
  induction a generalizing op with
  | nil => rfl
  | cons c a ih => exact ih _

/-- The states an operation object of a remembering transformation can be in. -/
def Op.HasState : Op κ → Prop
  | .scaling _ st => st ≠ none
  | .dimred _ tm => tm ≠ none
  | .featsel _ _ sel _ => sel ≠ none

theorem Op.apply_of_state {env : Env} {op : Op κ} (h : op.HasState) (m : TMat ℝ) :
    op.apply env m = .error .illegalStateError := by
  cases op with
  | scaling t st => cases st with
    | none => exact absurd rfl h
    | some st => rfl
  | dimred t tm => cases tm with
    | none => exact absurd rfl h
    | some tm => rfl
  | featsel k c sel orig => cases sel with
    | none => exact absurd rfl h
    | some sel => rfl

theorem Op.after_of_state {env : Env} {op : Op κ} (h : op.HasState) (cs : List OpCall) : op.after env cs = op := by
  induction cs with
  | nil => rfl
  | cons c cs ih =>
    cases c with
    | apply m => simp only [Op.after, Op.call, Op.apply_of_state h]; exact ih
    | project m => simp only [Op.after, Op.call]; exact ih

/-- An object of transformation `t` that is still as created or has its state. -/
def Op.Stage (t : Trans) (op : Op κ) : Prop := op = t.createOp ∨ op.HasState

theorem Op.apply_state {env : Env} {t : Trans} (ht : t.Remembers) {m r : TMat ℝ} {op : Op κ}
    (h : (t.createOp : Op κ).apply env m = .ok (op, r)) : op.HasState := by
  cases t with
  | scaling st =>
    obtain ⟨rfl, _⟩ := opApply_scaling h
    have ht' : st.usesStats = true := ht
    simp [HasState, ht']
  | dimred dt =>
    obtain ⟨_, _, _, rfl, _⟩ := opApply_dimred h
    simp [HasState]
  | featsel k c =>
    obtain ⟨_, _, rfl⟩ := opApply_featsel h
    simp [HasState]

theorem Op.after_stage {env : Env} {t : Trans} (ht : t.Remembers) (cs : List OpCall) :
    ∀ op : Op κ, op.Stage t → (op.after env cs).Stage t := by
  induction cs with
  | nil => intro op h; exact h
  | cons c cs ih =>
    intro op h
    refine ih _ ?_
    cases c with
    | project m => exact h
    | apply m =>
      rcases h with rfl | h
      · simp only [call]
        cases ha : (t.createOp : Op κ).apply env m with
        | error e => exact Or.inl rfl
        | ok p => exact Or.inr (Op.apply_state ht ha)
      · simp only [call, Op.apply_of_state h]
        exact Or.inr h

/-- **C27** (part) once an `apply` has returned, whatever was called before and is called after: the stored state never
changes again and every further `apply` raises `IllegalStateError`. Missing for the full claim: `PlogWeighting` and
`RowNormalization` (refuted below). -/
theorem C27_applied_once_partial (env : Env) (t : Trans) (ht : t.Remembers) (before after : List OpCall)
    (m m' r : TMat ℝ) (op : Op κ)
    (h : ((t.createOp : Op κ).after env before).apply env m = .ok (op, r)) :
    op.after env after = op ∧ (op.after env after).apply env m' = .error .illegalStateError := by
  have hs : op.HasState := by
    rcases Op.after_stage (κ := κ) (env := env) ht before _ (Or.inl rfl) with h1 | h1
    · rw [h1] at h
      exact Op.apply_state ht h
    · rw [Op.apply_of_state h1] at h
      cases h
  rw [Op.after_of_state hs]
  exact ⟨rfl, Op.apply_of_state hs m'⟩

/-- **C27** (part) projecting before any successful `apply` raises `IllegalStateError`, for weightings with column
statistics and for dimensionality reductions, whatever calls were made before. Missing: feature selection,
`PlogWeighting` and `RowNormalization` (refuted below). -/
theorem C27_project_first_partial (env : Env) (t : Trans) (ht : t.Remembers) (hf : ∀ k c, t ≠ .featsel k c)
    (before : List OpCall)
    (hno : ∀ a m b, before = a ++ .apply m :: b → ∃ e, ((t.createOp : Op κ).after env a).apply env m = .error e)
    (m : TMat ℝ) : ((t.createOp : Op κ).after env before).project m = .error .illegalStateError := by
  have hst : (t.createOp : Op κ).after env before = t.createOp := by
    induction before using List.reverseRecOn with
    | nil => rfl
    | append_singleton cs c ih =>
      have := ih (fun a m b he => hno a m (b ++ [c]) (by rw [he]; simp))
      rw [Op.after_append, this]
      cases c with
      | project m => rfl
      | apply m' =>
        obtain ⟨e, he⟩ := hno cs m' [] rfl
        rw [this] at he
        simp only [Op.after, Op.call, he]
  rw [hst]
  cases t with
  | scaling st =>
    have ht' : st.usesStats = true := ht
    simp [Trans.createOp, Op.project, ht']
  | dimred dt => rfl
  | featsel k c => exact absurd rfl (hf k c)

/-- **C27** is false for feature selection: projecting a fresh one raises `AttributeError`. -/
theorem C27_featsel_refuted (k : ℕ) (c : Crit) (m : TMat ℝ) :
    ((Trans.featsel k c).createOp : Op κ).project m = .error .attributeError := rfl

/-- **C27** is false for the two scalings without statistics: on any non-empty matrix a fresh operation can be
projected, and `apply` can be repeated any number of times. -/
theorem C27_stateless_refuted (env : Env) (t : ScalingT) (ht : t.usesStats = false) (m : TMat ℝ) (hr : 0 < m.nr)
    (hc : 0 < m.nc) (before : List OpCall) :
    ∃ r, (((Trans.scaling t).createOp : Op κ).after env before).project m = .ok r ∧
      (((Trans.scaling t).createOp : Op κ).after env before).apply env m = .ok ((Trans.scaling t).createOp, r) := by
  have hok : ∃ r, t.apply m none = .ok r := by
    cases t with
    | plog => exact ⟨_, (C17_plog m hr hc).choose_spec.1⟩
    | rowNorm c => exact ⟨_, (C18_row_normalization c m hr hc).choose_spec.1⟩
    | epmi => cases ht
    | ppmi => cases ht
    | plmi => cases ht
    | norm c => cases ht
  have hst : ∀ cs, ((Trans.scaling t).createOp : Op κ).after env cs = (Trans.scaling t).createOp := by
    intro cs
    induction cs with
    | nil => rfl
    | cons c cs ih =>
      cases c with
      | project m => exact ih
      | apply m =>
        have hc1 : (((Trans.scaling t).createOp : Op κ).call env (.apply m)).1 = (Trans.scaling t).createOp := by
          simp only [Op.call, Trans.createOp, Op.apply]
          cases t.apply m none with
          | error e => rfl
          | ok r => simp [ht]
        rw [Op.after, hc1]
        exact ih
  obtain ⟨r, hrr⟩ := hok
  refine ⟨r, ?_, ?_⟩
  · rw [hst]; simp [Trans.createOp, Op.project, ht, hrr]
  · rw [hst]; simp [Trans.createOp, Op.apply, ht, hrr]

/-- Non-vacuity of C27: a feature selection applied to a 2×3 matrix. -/
example (env : Env) : ∃ (op : Op String) (r : TMat ℝ),
    (((Trans.featsel 2 .sum).createOp : Op String).after env [.project (exMat .dense)]).apply env (exMat .dense) =
      .ok (op, r) ∧ (Trans.featsel 2 .sum).Remembers := by
  obtain ⟨r, sel, ht, _⟩ := C20_top_feature_selection 2 .sum (exMat .dense) (by omega)
    (by simp [exMat, TMat.nr]) (by simp [exMat, TMat.nc])
  exact ⟨.featsel 2 .sum (some sel) none, r,
    by simp only [Op.after, Op.call, Trans.createOp, Op.apply, ht, ok_bind, pure_eq_ok], trivial⟩

/-! ## C28 -/

theorem addItemsAux_old (noEls : ℕ) (l : List κ) : ∀ (d : Dict κ ℤ) (idx : ℕ) (w : κ) (v : ℤ),
    d.get? w = some v → (addItemsAux noEls d idx l).1.get? w = some v := by
  induction l with
  | nil => intro d idx w v h; exact h
  | cons x xs ih =>
    intro d idx w v h
    unfold addItemsAux
    split
    · exact h
    · rename_i hc
      refine ih _ _ _ _ ?_
      rw [Dict.get?_set, if_neg]
      · exact h
      · rintro rfl
        exact hc (Dict.contains_iff.2 ⟨v, h⟩)

/-- **C28** (part) whatever `add_rows` does — success or any failure, at any point — every word that was in the space
before still yields the same row. Missing for the full claim: words that were *not* in the space (refuted below). -/
theorem C28_old_words_partial (p : Space κ) (hwf : p.WF) (hpos : ∀ w v, p.row2id.get? w = some v → 0 ≤ v)
    (m : TMat ℝ) (ws : List κ) (w : κ) (hw : w ∈ p.id2row) :
    (Periph.addRows p m ws).1.getRow w = p.getRow w := by
  obtain ⟨i, hi⟩ := List.mem_iff_getElem?.1 hw
  obtain ⟨v, hv, hidx⟩ := hwf.rows.lookup hi
  have hv0 := hpos w v hv
  have hlt : i < p.id2row.length := pyIdx_lt hidx
  have hvi : v = (i : ℤ) := by
    unfold pyIdx at hidx
    split at hidx
    · injection hidx with hidx; omega
    · split at hidx
      · omega
      · cases hidx
  have hrow : (Periph.addRows p m ws).1.row2id.get? w = some v := by
    have := addItemsAux_old p.row2id.len ws p.row2id 0 w v hv
    unfold Periph.addRows addItemsToDict
    revert this
    rcases addItemsAux p.row2id.len p.row2id 0 ws with ⟨d, out⟩
    intro this
    cases out with
    | error e => exact this
    | ok u =>
      simp only
      split
      · exact this
      · split
        · exact this
        · split <;> exact this
  have hmat : (Periph.addRows p m ws).1.mat = p.mat ∨ ∃ m', p.mat.vstack m' = .ok (Periph.addRows p m ws).1.mat := by
    unfold Periph.addRows
    rcases addItemsToDict p.row2id ws with ⟨d, out⟩
    cases out with
    | error e => exact Or.inl rfl
    | ok u =>
      simp only
      split
      · exact Or.inl rfl
      · split
        · exact Or.inl rfl
        · rename_i m' _
          split
          · exact Or.inl rfl
          · rename_i mm hmm
            exact Or.inr ⟨m', hmm⟩
  unfold Space.getRow
  rw [Dict.getItem_eq_ok.2 hrow, Dict.getItem_eq_ok.2 hv, ok_bind, ok_bind]
  rcases hmat with hm | ⟨m', hm⟩
  · rw [hm]
  · have hlt' : i < p.mat.nr := by rw [hwf.nrows]; exact hlt
    unfold TMat.vstack at hm
    split at hm
    · split at hm
      · rename_i hnc
        obtain ⟨hm, _⟩ := TMat.wrap_eq_ok hm
        rw [hm]
        unfold TMat.getRow
        rw [hvi, pyIdx_nat hlt', pyIdx_nat (show i < (⟨p.mat.ty, p.mat.val.vstack m'.val⟩ : TMat ℝ).nr from
          Nat.lt_add_right _ hlt')]
        have : (p.mat.val.vstack m'.val).row i = p.mat.val.row i := by
          refine Mat.ext' rfl rfl (fun a j ha hj => ?_)
          have e := congrFun (RowMap.vstack_row_left p.mat.val m'.val hnc hlt') j
          simp only [Mat.row_nr] at ha
          obtain rfl : a = 0 := by omega
          exact e
        simp only [this]
      · cases hm
    · cases hm

/-- **C28** (part) when the very first label is already in the space the call fails and nothing has changed. -/
theorem C28_first_duplicate_partial (p : Space κ) (hwf : p.WF) (m : TMat ℝ) (w : κ) (ws : List κ) (hw : w ∈ p.id2row) :
    Periph.addRows p m (w :: ws) = (p, .error .valueError) := by
  obtain ⟨v, hv⟩ := (hwf.rows.keys w).1 hw
  have : addItemsToDict p.row2id (w :: ws) = (p.row2id, .error .valueError) := by
    unfold addItemsToDict addItemsAux
    rw [if_pos (Dict.contains_iff.2 ⟨v, hv⟩)]
  unfold Periph.addRows
  rw [this]

/-- **C28** is false: `add_rows` with new labels and a matrix with the wrong number of rows raises `ValueError`, but
afterwards every one of these labels, which used to raise `KeyError`, is in the row dictionary and raises
`IndexError`, and a second, correct call is refused as a duplicate. This happens for *every* peripheral space. -/
theorem C28_refuted (p : Space κ) (hwf : p.WF) (m : TMat ℝ) (w : κ) (ws : List κ) (hnew : (w :: ws).Nodup)
    (hdis : ∀ x ∈ w :: ws, x ∉ p.id2row) (hcount : m.nr ≠ (w :: ws).length) :
    (Periph.addRows p m (w :: ws)).2 = .error .valueError ∧
    (∀ x ∈ w :: ws, p.getRow x = .error .keyError ∧
      (Periph.addRows p m (w :: ws)).1.getRow x = .error .indexError) ∧
    (∀ m', (Periph.addRows (Periph.addRows p m (w :: ws)).1 m' (w :: ws)).2 = .error .valueError) := by
  obtain ⟨d, hd⟩ := addItems_of_disjoint (d := p.row2id) hnew (fun x hx => hwf.rows.lookup_none (hdis x hx))
  obtain ⟨_, _, _, h4, _⟩ := addItems_ok hd
  have hp : Periph.addRows p m (w :: ws) = ({ p with row2id := d }, .error .valueError) := by
    unfold Periph.addRows
    rw [hd]
    simp only
    rw [if_pos hcount]
  rw [hp]
  refine ⟨rfl, fun x hx => ⟨Space.getRow_missing hwf (hdis x hx), ?_⟩, fun m' => ?_⟩
  · obtain ⟨i, hi⟩ := List.mem_iff_getElem?.1 hx
    unfold Space.getRow
    rw [Dict.getItem_eq_ok.2 (h4 i x hi), ok_bind]
    unfold TMat.getRow
    have : pyIdx p.mat.nr ((p.row2id.len + i : ℕ) : ℤ) = none := by
      rw [hwf.rows.len, ← hwf.nrows]
      unfold pyIdx
      rw [if_neg (by push_cast; omega), if_neg (by omega)]
    rw [this]
  · have h2 : addItemsToDict d (w :: ws) = (d, .error .valueError) := by
      unfold addItemsToDict addItemsAux
      rw [if_pos (Dict.contains_iff.2 ⟨_, h4 0 w rfl⟩)]
    unfold Periph.addRows
    simp only [h2]

/-- Non-vacuity of C28: a two-row space, a new label, an empty batch of rows. -/
example : ∃ (p : Space String) (m : TMat ℝ), p.WF ∧ (["horse"] : List String).Nodup ∧
    (∀ x ∈ ["horse"], x ∉ p.id2row) ∧ m.nr ≠ ["horse"].length ∧ "dog" ∈ p.id2row := by
  obtain ⟨s, h, hm, hr, _⟩ := ex_space .dense
  exact ⟨s, exMat .dense, h, by simp, by rw [hr]; simp, by simp [exMat, TMat.nr], by rw [hr]; simp⟩

end Dissect
