import Verif.Props.StackMore
import Verif.Props.Repeat
import Verif.Props.RidgeZero
import Verif.Props.SvdBest

/-! # C161: a space stored densely and the same space stored sparsely -/

namespace Dissect
open Finset
noncomputable section
variable {κ : Type} [DecidableEq κ]

/-- Two spaces that differ at most in the class (dense or sparse) of the matrix. -/
structure Twin (s t : Space κ) : Prop where
  rows : s.id2row = t.id2row
  cols : s.id2col = t.id2col
  rowMap : s.row2id = t.row2id
  colMap : s.col2id = t.col2id
  ops : s.ops = t.ops
  shape : s.elemShape = t.elemShape
  values : s.mat.val = t.mat.val

/-- A space with at least one word and one context. -/
structure Inhabited' (s : Space κ) : Prop where
  nr : 0 < s.mat.nr
  nc : 0 < s.mat.nc

omit [DecidableEq κ] in
theorem Twin.symm {s t : Space κ} (h : Twin s t) : Twin t s :=
  ⟨h.rows.symm, h.cols.symm, h.rowMap.symm, h.colMap.symm, h.ops.symm, h.shape.symm, h.values.symm⟩

omit [DecidableEq κ] in
theorem Twin.refl (s : Space κ) : Twin s s := ⟨rfl, rfl, rfl, rfl, rfl, rfl, rfl⟩

omit [DecidableEq κ] in
theorem Twin.trans {s t u : Space κ} (h : Twin s t) (k : Twin t u) : Twin s u :=
  ⟨h.rows.trans k.rows, h.cols.trans k.cols, h.rowMap.trans k.rowMap, h.colMap.trans k.colMap, h.ops.trans k.ops,
    h.shape.trans k.shape, h.values.trans k.values⟩

omit [DecidableEq κ] in
theorem Twin.nc {s t : Space κ} (h : Twin s t) : s.mat.nc = t.mat.nc := by
  show s.mat.val.nc = t.mat.val.nc
  rw [h.values]

omit [DecidableEq κ] in
theorem Twin.nr {s t : Space κ} (h : Twin s t) : s.mat.nr = t.mat.nr := by
  show s.mat.val.nr = t.mat.val.nr
  rw [h.values]

theorem Twin.vec {s t : Space κ} (h : Twin s t) : s.vecOf = t.vecOf := by
  funext w j
  unfold Space.vecOf
  rw [h.values, h.rows]

theorem Twin.wf {s t : Space κ} (h : Twin s t) (w : s.WF) : t.WF :=
  ⟨by rw [← h.rows, ← h.rowMap]; exact w.rows, by rw [← h.cols, ← h.colMap]; exact w.cols, by rw [← h.nr, ← h.rows]; exact w.nrows,
    by rw [← h.nc, ← h.cols]; exact w.ncols, by rw [← h.nc, ← h.shape]; exact w.shape⟩

omit [DecidableEq κ] in
theorem Inhabited'.twin {s t : Space κ} (h : Twin s t) (hs : Inhabited' s) : Inhabited' t :=
  ⟨by rw [← h.nr]; exact hs.nr, by rw [← h.nc]; exact hs.nc⟩

/-- **C161** `to_dense` and `to_sparse` work on every space with words and contexts and change nothing else. -/
theorem C161_convert (s : Space κ) (hs : Inhabited' s) : ∃ d p, s.toDense = .ok d ∧ s.toSparse = .ok p ∧ d.mat.ty = .dense ∧
    p.mat.ty = .sparse ∧ Twin s d ∧ Twin s p ∧ Twin d p := by
  have hp : ∀ m : TMat ℝ, 0 < m.nr → 0 < m.nc → m.toSparse = .ok ⟨.sparse, m.val⟩ := by
    rintro ⟨ty, A⟩ h1 h2
    cases ty with
    | sparse => rfl
    | dense =>
      show TMat.ofNumpy .sparse A = _
      unfold TMat.ofNumpy
      have h1' : 0 < A.nr := h1
      have h2' : 0 < A.nc := h2
      rw [if_neg (by omega)]
  refine ⟨{ s with mat := ⟨.dense, s.mat.val⟩ }, { s with mat := ⟨.sparse, s.mat.val⟩ }, rfl, ?_, rfl, rfl,
    ⟨rfl, rfl, rfl, rfl, rfl, rfl, rfl⟩, ⟨rfl, rfl, rfl, rfl, rfl, rfl, rfl⟩, ⟨rfl, rfl, rfl, rfl, rfl, rfl, rfl⟩⟩
  unfold Space.toSparse
  rw [hp s.mat hs.nr hs.nc]
  rfl

/-- **C161** The similarity of two words does not depend on how the space, or either of two spaces, is stored. -/
theorem C161_sim (s t : Space κ) (s2 t2 : Option (Space κ)) (h : Twin s t) (h2 : Twin (s2.getD s) (t2.getD t)) (hs : s.WF)
    (ht : t.WF) (hs2 : (s2.getD s).WF) (ht2 : (t2.getD t).WF) (hc : 0 < s.mat.nc) (hcc : s.mat.nc = (s2.getD s).mat.nc)
    (w1 w2 : κ) (sim : Sim) : s.getSim w1 w2 sim s2 = t.getSim w1 w2 sim t2 := by
  by_cases hm : w1 ∉ s.id2row ∨ w2 ∉ (s2.getD s).id2row
  · rw [C08_missing s _ s2 sim w1 w2 rfl hs hs2 hc hm, C08_missing t _ t2 sim w1 w2 rfl ht ht2 (by rw [← h.nc]; exact hc)
      (by rw [← h.rows, ← h2.rows]; exact hm)]
  · push Not at hm
    have i1 := Space.hasWord_idxOf hm.1
    have i2 := Space.hasWord_idxOf hm.2
    have j1 := Space.hasWord_idxOf (s := t) (by rw [← h.rows]; exact hm.1)
    have j2 := Space.hasWord_idxOf (s := t2.getD t) (by rw [← h2.rows]; exact hm.2)
    rw [Space.getSim_words2 rfl hs hs2 hc hcc i1 i2 sim, Space.getSim_words2 rfl ht ht2 (by rw [← h.nc]; exact hc)
      (by rw [← h.nc, ← h2.nc]; exact hcc) j1 j2 sim, h.nc, h.values, h2.values, h.rows, h2.rows]

/-- **C161** Neither do the neighbours of a word. -/
theorem C161_neighbours (s t : Space κ) (s2 t2 : Option (Space κ)) (h : Twin s t) (h2 : Twin (s2.getD s) (t2.getD t)) (hs : s.WF)
    (ht : t.WF) (hs2 : (s2.getD s).WF) (ht2 : (t2.getD t).WF) (hc : 0 < s.mat.nc) (hcc : s.mat.nc = (s2.getD s).mat.nc)
    (hr : 0 < (s2.getD s).id2row.length) (w : κ) (n : ℤ) (sim : Sim) (hw : w ∈ s.id2row) :
    ∃ res, s.getNeighbours w n sim s2 = .ok res ∧ t.getNeighbours w n sim t2 = .ok res := by
  obtain ⟨res, sc, e, hsc, htop⟩ := C09_top_n s _ s2 sim w n rfl hs hs2 hc hcc hw hr
  obtain ⟨res', sc', e', hsc', htop'⟩ := C09_top_n t _ t2 sim w n rfl ht ht2 (by rw [← h.nc]; exact hc)
    (by rw [← h.nc, ← h2.nc]; exact hcc) (by rw [← h.rows]; exact hw) (by rw [← h2.rows]; exact hr)
  rw [← h2.rows] at htop' hsc'
  have : res = res' := htop.unique (fun x hx => by
    have a := hsc x hx
    have b := hsc' x hx
    rw [C161_sim s t s2 t2 h h2 hs ht hs2 ht2 hc hcc, b] at a
    exact (ok_inj a).symm) htop'
  subst this
  exact ⟨res, e, e'⟩

/-! ### Transformations -/

/-- The transformations that do not factorise the matrix: all scalings, and feature selection. -/
def Trans.Simple : Trans → Prop
  | .scaling _ => True
  | .featsel k _ => 0 < k
  | .dimred _ => False

theorem scaleRows_class {A : Mat ℝ} (hr : 0 < A.nr) (hc : 0 < A.nc) {a : Arr ℝ} (h1 : a.shape = [A.nr, 1])
    (h2 : a.data.length = A.nr) (ty : MTy) :
    (⟨ty, A⟩ : TMat ℝ).scaleRows a = .ok ⟨ty, A.scaleRows (fun i => a.data.getD i 0)⟩ := by
  cases ty with
  | dense =>
    simp only [TMat.scaleRows, TMat.nr, h1, true_or, if_true]
    exact TMat.wrap_ok_pos hr hc
  | sparse =>
    simp only [TMat.scaleRows, TMat.nr, h2, if_true]
    rfl

theorem scaleCols_class {A : Mat ℝ} (hr : 0 < A.nr) (hc : 0 < A.nc) {a : Arr ℝ} (h1 : a.shape = [1, A.nc])
    (h2 : a.data.length = A.nc) (ty : MTy) :
    (⟨ty, A⟩ : TMat ℝ).scaleCols a = .ok ⟨ty, A.scaleCols (fun i => a.data.getD i 0)⟩ := by
  cases ty with
  | dense =>
    simp only [TMat.scaleCols, TMat.nc, h1, true_or, if_true]
    exact TMat.wrap_ok_pos hr hc
  | sparse =>
    simp only [TMat.scaleCols, TMat.nc, h2, if_true]
    rfl

theorem plog_class (A : Mat ℝ) : ∃ B : Mat ℝ, B.nr = A.nr ∧ B.nc = A.nc ∧ ∀ ty, (⟨ty, A⟩ : TMat ℝ).plog = ⟨ty, B⟩ := by
  refine ⟨A.map (fun x => Real.log (if x < 1 then 1 else x)), rfl, rfl, fun ty => ?_⟩
  cases ty with
  | dense => rfl
  | sparse =>
    simp only [TMat.plog]
    congr 2
    funext x
    rcases lt_trichotomy x 1 with h | h | h
    · by_cases h0 : x = 0
      · simp [h0]
      · simp [h0, h, h.le]
    · subst h; simp
    · rw [if_neg (by linarith : ¬ x = 0), if_neg (not_le.2 h), if_neg (not_lt.2 h.le)]

theorem epmi_class (A : Mat ℝ) (hr : 0 < A.nr) (hc : 0 < A.nc) :
    (∃ B : Mat ℝ, B.nr = A.nr ∧ B.nc = A.nc ∧ ∀ ty, epmi ⟨ty, A⟩ none = .ok ⟨ty, B⟩) ∨
      ∃ e, ∀ ty, epmi ⟨ty, A⟩ none = .error e := by
  have hp : ∀ ty, (⟨ty, A⟩ : TMat ℝ).assertPositive = (⟨.dense, A⟩ : TMat ℝ).assertPositive := fun _ => rfl
  cases ha : (⟨.dense, A⟩ : TMat ℝ).assertPositive with
  | error e =>
    refine .inr ⟨e, fun ty => ?_⟩
    unfold epmi
    rw [hp ty, ha]
    rfl
  | ok u =>
    refine .inl ⟨(A.scaleRows (fun i => (nonzeroInvert (⟨.dense, A⟩ : TMat ℝ).sum1).data.getD i 0)).scaleCols
      (fun j => ((nonzeroInvert (⟨.dense, A⟩ : TMat ℝ).sum0).scale (⟨.dense, A⟩ : TMat ℝ).sum0.sum).data.getD j 0), rfl, rfl,
      fun ty => ?_⟩
    unfold epmi
    rw [hp ty, ha]
    simp only [ok_bind, Option.getD_none]
    have e1 := scaleRows_class hr hc (a := nonzeroInvert (⟨.dense, A⟩ : TMat ℝ).sum1) rfl
      (by simp [nonzeroInvert, TMat.sum1]) ty
    have e2 := scaleCols_class (A := A.scaleRows (fun i => (nonzeroInvert (⟨.dense, A⟩ : TMat ℝ).sum1).data.getD i 0)) hr hc
      (a := (nonzeroInvert (⟨.dense, A⟩ : TMat ℝ).sum0).scale (⟨.dense, A⟩ : TMat ℝ).sum0.sum) rfl
      (by simp [nonzeroInvert, TMat.sum0, Arr.scale]) ty
    have e1' : (⟨ty, A⟩ : TMat ℝ).scaleRows (nonzeroInvert (⟨ty, A⟩ : TMat ℝ).sum1) = _ := e1
    rw [e1', ok_bind]
    exact e2

theorem ppmi_class (A : Mat ℝ) (hr : 0 < A.nr) (hc : 0 < A.nc) :
    (∃ B : Mat ℝ, B.nr = A.nr ∧ B.nc = A.nc ∧ ∀ ty, ppmi ⟨ty, A⟩ none = .ok ⟨ty, B⟩) ∨
      ∃ e, ∀ ty, ppmi ⟨ty, A⟩ none = .error e := by
  rcases epmi_class A hr hc with ⟨B, h1, h2, h⟩ | ⟨e, h⟩
  · obtain ⟨C, k1, k2, k⟩ := plog_class B
    refine .inl ⟨C, k1.trans h1, k2.trans h2, fun ty => ?_⟩
    unfold ppmi
    rw [h ty, ok_bind, k ty]
    rfl
  · refine .inr ⟨e, fun ty => ?_⟩
    unfold ppmi
    rw [h ty]
    rfl

theorem scaling_class (st : ScalingT) (A : Mat ℝ) (hr : 0 < A.nr) (hc : 0 < A.nc) :
    (∃ B : Mat ℝ, B.nr = A.nr ∧ B.nc = A.nc ∧ ∀ ty, st.apply ⟨ty, A⟩ none = .ok ⟨ty, B⟩) ∨
      ∃ e, ∀ ty, st.apply ⟨ty, A⟩ none = .error e := by
  cases st with
  | epmi => exact epmi_class A hr hc
  | ppmi => exact ppmi_class A hr hc
  | plmi =>
    rcases ppmi_class A hr hc with ⟨B, h1, h2, h⟩ | ⟨e, h⟩
    · refine .inl ⟨A.had B, rfl, rfl, fun ty => ?_⟩
      show plmi _ _ = _
      unfold plmi
      rw [h ty, ok_bind]
      unfold TMat.multiply
      rw [if_pos rfl, if_pos ⟨h1.symm, h2.symm⟩]
      exact TMat.wrap_ok_pos hr hc
    · refine .inr ⟨e, fun ty => ?_⟩
      show plmi _ _ = _
      unfold plmi
      rw [h ty]
      rfl
  | plog =>
    obtain ⟨C, k1, k2, k⟩ := plog_class A
    refine .inl ⟨C, k1, k2, fun ty => ?_⟩
    show plogWeighting _ = _
    unfold plogWeighting TMat.copy
    rw [TMat.wrap_ok_pos hr hc, ok_bind, k ty]
    rfl
  | rowNorm c =>
    cases c with
    | sum =>
      exact .inl ⟨A.scaleRows (fun i => (nonzeroInvert (⟨.dense, A⟩ : TMat ℝ).sum1).data.getD i 0), rfl, rfl, fun ty =>
        scaleRows_class hr hc (a := nonzeroInvert (⟨.dense, A⟩ : TMat ℝ).sum1) rfl (by simp [nonzeroInvert, TMat.sum1]) ty⟩
    | length =>
      exact .inl ⟨A.scaleRows (fun i => (nonzeroInvert (⟨.dense, A⟩ : TMat ℝ).norm1).data.getD i 0), rfl, rfl, fun ty =>
        scaleRows_class hr hc (a := nonzeroInvert (⟨.dense, A⟩ : TMat ℝ).norm1) rfl (by simp [nonzeroInvert, TMat.norm1]) ty⟩
  | norm c =>
    refine .inl ⟨if normTotal c ⟨.dense, A⟩ = 0 then A else A.smul (1 / normTotal c ⟨.dense, A⟩), ?_, ?_, fun ty => ?_⟩
    · split <;> rfl
    · split <;> rfl
    · have e : normTotal c ⟨ty, A⟩ = normTotal c ⟨.dense, A⟩ := rfl
      show normalization _ _ _ = _
      unfold normalization
      simp only [Option.getD_none, e]
      split
      · rfl
      · exact TMat.wrap_ok_pos hr hc

theorem featsel_class (k : ℕ) (hk : 0 < k) (c : Crit) (A : Mat ℝ) (hr : 0 < A.nr) (hc : 0 < A.nc) :
    ∃ (B : Mat ℝ) (sel : List ℕ), B.nr = A.nr ∧ 0 < B.nc ∧ ∀ ty, topFeatureSelection k c ⟨ty, A⟩ = .ok (⟨ty, B⟩, sel) := by
  obtain ⟨r, sel, e, hb, r1, r2, r3, _⟩ := C20_top_feature_selection k c ⟨.dense, A⟩ hk hr hc
  obtain ⟨r', sel', e', hb', r1', r2', r3', _⟩ := C20_top_feature_selection k c ⟨.sparse, A⟩ hk hr hc
  obtain ⟨x1, _, x2⟩ := topFeatureSelection_ok e
  obtain ⟨y1, _, y2⟩ := topFeatureSelection_ok e'
  have hs : sel = sel' := by
    unfold topFeatureSelection at e e'
    simp only [bind_eq_ok] at e e'
    obtain ⟨m, _, e⟩ := e
    obtain ⟨m', _, e'⟩ := e'
    have a := ok_inj e
    have b := ok_inj e'
    injection a with _ a
    injection b with _ b
    rw [← a, ← b]
    rfl
  subst hs
  refine ⟨A.selCols sel, sel, rfl, ?_, fun ty => ?_⟩
  · have : r.nc = (A.selCols sel).nc := by rw [x2]
    rw [← this, r3]
    exact lt_min hk hc
  · cases ty with
    | dense => rw [e, x2]
    | sparse => rw [e', y2]

theorem new_twin (B : Mat ℝ) (rows cols : List κ) (r c : Option (Dict κ ℤ)) (ops : List (Op κ)) (ty ty' : MTy) :
    (∃ s t, Space.new ⟨ty, B⟩ rows cols r c ops none = .ok s ∧ Space.new ⟨ty', B⟩ rows cols r c ops none = .ok t ∧ Twin s t ∧
      s.mat = ⟨ty, B⟩) ∨
    ∃ e, Space.new ⟨ty, B⟩ rows cols r c ops none = .error e ∧ Space.new ⟨ty', B⟩ rows cols r c ops none = .error e := by
  unfold Space.new
  cases Space.resolveMap rows r with
  | error e => exact .inr ⟨e, rfl, rfl⟩
  | ok r' =>
    cases Space.resolveMap cols c with
    | error e => exact .inr ⟨e, rfl, rfl⟩
    | ok c' =>
      simp only [ok_bind]
      have hs : Space.shapeCheck (⟨ty, B⟩ : TMat ℝ) rows cols r' c' = Space.shapeCheck ⟨ty', B⟩ rows cols r' c' := rfl
      rw [hs]
      cases Space.shapeCheck (⟨ty', B⟩ : TMat ℝ) rows cols r' c' with
      | error e => exact .inr ⟨e, rfl, rfl⟩
      | ok u => exact .inl ⟨_, _, rfl, rfl, ⟨rfl, rfl, rfl, rfl, rfl, rfl, rfl⟩, rfl⟩

/-- **C161** A scaling or a feature selection does not depend on how the space is stored: it raises the same exception, or gives
spaces that again differ at most in the class of the matrix. -/
theorem C161_apply (env : Env) (s t : Space κ) (h : Twin s t) (hs : Inhabited' s) (tr : Trans) (htr : tr.Simple) :
    (∃ s' t', s.apply env tr = .ok s' ∧ t.apply env tr = .ok t' ∧ Twin s' t' ∧ Inhabited' s') ∨
    ∃ e, s.apply env tr = .error e ∧ t.apply env tr = .error e := by
  have em : s.mat = ⟨s.mat.ty, s.mat.val⟩ := rfl
  have em' : t.mat = ⟨t.mat.ty, s.mat.val⟩ := by rw [h.values]
  unfold Space.apply
  rw [em', em, ← h.rows, ← h.cols, ← h.rowMap, ← h.colMap, ← h.ops]
  cases tr with
  | scaling st =>
    rcases scaling_class st s.mat.val hs.nr hs.nc with ⟨B, b1, b2, hB⟩ | ⟨e, he⟩
    · simp only [Trans.createOp, Op.apply, hB, ok_bind, pure_eq_ok]
      have hst : st.columnStats ⟨t.mat.ty, s.mat.val⟩ = st.columnStats ⟨s.mat.ty, s.mat.val⟩ := by cases st <;> rfl
      rw [hst]
      rcases new_twin B s.id2row s.id2col (some s.row2id) (some s.col2id)
        (s.ops ++ [Op.scaling st (if st.usesStats = true then some (st.columnStats ⟨s.mat.ty, s.mat.val⟩) else none)])
        s.mat.ty t.mat.ty with ⟨s', t', e1, e2, hT, hm⟩ | ⟨e, e1, e2⟩
      · exact .inl ⟨s', t', e1, e2, hT, by rw [hm]; show 0 < B.nr; rw [b1]; exact hs.nr,
          by rw [hm]; show 0 < B.nc; rw [b2]; exact hs.nc⟩
      · exact .inr ⟨e, e1, e2⟩
    · refine .inr ⟨e, ?_, ?_⟩
      · simp only [Trans.createOp, Op.apply, he]; rfl
      · simp only [Trans.createOp, Op.apply, he]; rfl
  | dimred d => exact htr.elim
  | featsel k c =>
    obtain ⟨B, sel, b1, b2, hB⟩ := featsel_class k htr c s.mat.val hs.nr hs.nc
    simp only [Trans.createOp, Op.apply, hB, ok_bind, pure_eq_ok]
    have ha : t.assert1dim = s.assert1dim := by unfold Space.assert1dim; rw [h.shape]
    rw [ha]
    cases s.assert1dim with
    | error e => exact .inr ⟨e, rfl, rfl⟩
    | ok u =>
      simp only [ok_bind]
      cases Space.selectedColumns (some s.id2col) (some sel) with
      | error e => exact .inr ⟨e, rfl, rfl⟩
      | ok q =>
        simp only [ok_bind]
        rcases new_twin B s.id2row q.1 (some s.row2id) (some q.2)
          (s.ops ++ [Op.featsel k c (some sel) (some s.id2col)]) s.mat.ty t.mat.ty with ⟨s', t', e1, e2, hT, hm⟩ | ⟨e, e1, e2⟩
        · exact .inl ⟨s', t', e1, e2, hT, by rw [hm]; show 0 < B.nr; rw [b1]; exact hs.nr, by rw [hm]; exact b2⟩
        · exact .inr ⟨e, e1, e2⟩

/-- **C161** (true part) The same for a chain of such transformations. -/
theorem C161_chain_partial (env : Env) (s t : Space κ) (h : Twin s t) (hs : Inhabited' s) (trs : List Trans)
    (htr : ∀ tr ∈ trs, tr.Simple) :
    (∃ s' t', s.applyAll env trs = .ok s' ∧ t.applyAll env trs = .ok t' ∧ Twin s' t') ∨
    ∃ e, s.applyAll env trs = .error e ∧ t.applyAll env trs = .error e := by
  induction trs generalizing s t with
  | nil => exact .inl ⟨s, t, rfl, rfl, h⟩
  | cons tr trs ih =>
    unfold Space.applyAll
    rcases C161_apply env s t h hs tr (htr tr (List.mem_cons_self ..)) with ⟨s', t', e1, e2, hT, hs'⟩ | ⟨e, e1, e2⟩
    · rw [e1, e2]
      exact ih s' t' hT hs' (fun x hx => htr x (List.mem_cons_of_mem _ hx))
    · rw [e1, e2]
      exact .inr ⟨e, rfl, rfl⟩

/-! ### Composition -/

theorem Twin.known {s1 s2 t1 t2 : Space κ} (h1 : Twin s1 t1) (h2 : Twin s2 t2) (data : List (Triple κ)) :
    knownTriples s1 s2 data = knownTriples t1 t2 data := by
  unfold knownTriples
  rw [h1.rows, h2.rows]

/-- **C161** Composing works with the spaces stored in one way exactly when it works with them stored in another way … -/
theorem C161_compose_iff (c : Composer κ) (data : List (Triple κ)) (args args' : ArgSpace κ) (s1 s2 t1 t2 : Space κ) (w : ℕ)
    (hx : args.extract = .ok (s1, s2)) (hx' : args'.extract = .ok (t1, t2)) (h1 : Twin s1 t1) (h2 : Twin s2 t2) (w1 : s1.WF)
    (w2 : s2.WF) (w1' : t1.WF) (w2' : t2.WF) (hf : c.model.Fits s1.mat.nc s2.mat.nc w) (hc : c.ColumnsFit w) :
    (∃ r, (c.compose data args).2 = .ok r) ↔ ∃ r, (c.compose data args').2 = .ok r := by
  have hk := h1.known h2 data
  have hf' : c.model.Fits t1.mat.nc t2.mat.nc w := by rw [← h1.nc, ← h2.nc]; exact hf
  constructor
  · rintro ⟨r, hr⟩
    obtain ⟨hne, hnd, _⟩ := compose_success hx w1 w2 hf hc hr
    obtain ⟨r', hr', _⟩ := C38_compose c data _ t1 t2 w hx' w1' w2' hf' hc (by rw [← hk]; exact hne) (by rw [← hk]; exact hnd)
    exact ⟨r', hr'⟩
  · rintro ⟨r', hr'⟩
    obtain ⟨hne, hnd, _⟩ := compose_success hx' w1' w2' hf' hc hr'
    obtain ⟨r, hr, _⟩ := C38_compose c data _ s1 s2 w hx w1 w2 hf hc (by rw [hk]; exact hne) (by rw [hk]; exact hnd)
    exact ⟨r, hr⟩

/-- **C161** … and gives the same phrases with the same vectors. -/
theorem C161_compose (c : Composer κ) (data : List (Triple κ)) (args args' : ArgSpace κ) (s1 s2 t1 t2 : Space κ) (w : ℕ)
    (hx : args.extract = .ok (s1, s2)) (hx' : args'.extract = .ok (t1, t2)) (h1 : Twin s1 t1) (h2 : Twin s2 t2) (w1 : s1.WF)
    (w2 : s2.WF) (w1' : t1.WF) (w2' : t2.WF) (hf : c.model.Fits s1.mat.nc s2.mat.nc w) (hc : c.ColumnsFit w) (r r' : Space κ)
    (hr : (c.compose data args).2 = .ok r) (hr' : (c.compose data args').2 = .ok r') :
    r.id2row = r'.id2row ∧ r.mat.nc = r'.mat.nc ∧
      ∀ k j, k < r.mat.nr → j < r.mat.nc → r.mat.val.get k j = r'.mat.val.get k j := by
  have hk := h1.known h2 data
  have hf' : c.model.Fits t1.mat.nc t2.mat.nc w := by rw [← h1.nc, ← h2.nc]; exact hf
  obtain ⟨_, _, hcomp⟩ := compose_success hx w1 w2 hf hc hr
  obtain ⟨_, _, hcomp'⟩ := compose_success hx' w1' w2' hf' hc hr'
  rw [← hk] at hcomp'
  refine ⟨by rw [hcomp.labels, hcomp'.labels], by rw [hcomp.width, hcomp'.width], fun k j hlt hj => ?_⟩
  rw [hcomp.wf.nrows, hcomp.labels, List.length_map] at hlt
  rw [hcomp.width] at hj
  have hg : (knownTriples s1 s2 data)[k]? = some (knownTriples s1 s2 data)[k] := List.getElem?_eq_getElem hlt
  obtain ⟨_, m1, m2⟩ := mem_known.1 (List.getElem_mem hlt)
  generalize (knownTriples s1 s2 data)[k] = t at hg m1 m2
  rw [hcomp.vectors k t.1 t.2.1 t.2.2 _ _ hg (Space.hasWord_idxOf m1) (Space.hasWord_idxOf m2) j hj,
    hcomp'.vectors k t.1 t.2.1 t.2.2 _ _ hg (Space.hasWord_idxOf (by rw [← h1.rows]; exact m1))
      (Space.hasWord_idxOf (by rw [← h2.rows]; exact m2)) j hj, h1.nc, h2.nc, h1.values, h2.values, h1.rows, h2.rows]

/-! ### Training -/

theorem Twin.train_triples {s1 s2 p t1 t2 q : Space κ} (h1 : Twin s1 t1) (h2 : Twin s2 t2) (h3 : Twin p q) (data : List (Triple κ)) :
    trainTriples s1 s2 p data = trainTriples t1 t2 q data := by
  unfold trainTriples
  rw [h1.rows, h2.rows, h3.rows]

/-- **C161** A dilation model learns the same parameter, or training raises the same exception, however each of the three
spaces is stored. -/
theorem C161_train_dilation (env : Env) (c : Composer κ) (l0 : ℝ) (hc : c.model = .dilation l0) (data : List (Triple κ))
    (args args' : ArgSpace κ) (s1 s2 p t1 t2 q : Space κ) (n : ℕ) (hx : args.extract = .ok (s1, s2))
    (hx' : args'.extract = .ok (t1, t2)) (h1 : Twin s1 t1) (h2 : Twin s2 t2) (h3 : Twin p q) (w1 : s1.WF) (w2 : s2.WF) (w3 : p.WF)
    (w1' : t1.WF) (w2' : t2.WF) (w3' : q.WF) (hn : 0 < n) (n1 : s1.mat.nc = n) (n2 : s2.mat.nc = n) (n3 : p.mat.nc = n) :
    c.train env data args p = c.train env data args' q := by
  have ht := h1.train_triples h2 h3 data
  have htr : c.model.trainable = true := by rw [hc]; rfl
  by_cases hv : trainTriples s1 s2 p data = []
  · rw [train_nothing env c data args s1 s2 p hx w1 w2 w3 hv htr,
      train_nothing env c data args' t1 t2 q hx' w1' w2' w3' (by rw [← ht]; exact hv) htr]
  · rw [train_reduce env c data args s1 s2 p hx w1 w2 w3 hv htr,
      train_reduce env c data args' t1 t2 q hx' w1' w2' w3' (by rw [← ht]; exact hv) htr, hc,
      dilation_trainOn env w1 w2 w3 hn n1 n2 n3 _ hv (fun t m => trainTriples_mem m),
      dilation_trainOn env w1' w2' w3' hn (by rw [← h1.nc]; exact n1) (by rw [← h2.nc]; exact n2) (by rw [← h3.nc]; exact n3) _
        (by rw [← ht]; exact hv) (fun t m => trainTriples_mem m), ← ht, h1.vec, h2.vec, h3.vec, h3.cols]

/-- **C161** So does a weighted additive model, … -/
theorem C161_train_weighted (env : Env) (henv : env.Ideal) (c : Composer κ) (a0 b0 : ℝ) (hc : c.model = .weighted a0 b0)
    (data : List (Triple κ)) (args args' : ArgSpace κ) (s1 s2 p t1 t2 q : Space κ) (n : ℕ) (hx : args.extract = .ok (s1, s2))
    (hx' : args'.extract = .ok (t1, t2)) (h1 : Twin s1 t1) (h2 : Twin s2 t2) (h3 : Twin p q) (w1 : s1.WF) (w2 : s2.WF) (w3 : p.WF)
    (w1' : t1.WF) (w2' : t2.WF) (w3' : q.WF) (hn : 0 < n) (n1 : s1.mat.nc = n) (n2 : s2.mat.nc = n) (n3 : p.mat.nc = n) :
    c.train env data args p = c.train env data args' q := by
  have ht := h1.train_triples h2 h3 data
  have htr : c.model.trainable = true := by rw [hc]; rfl
  by_cases hv : trainTriples s1 s2 p data = []
  · rw [train_nothing env c data args s1 s2 p hx w1 w2 w3 hv htr,
      train_nothing env c data args' t1 t2 q hx' w1' w2' w3' (by rw [← ht]; exact hv) htr]
  · obtain ⟨P, hP, hPi⟩ := henv.pinv (gram2 s1 s2 n (usedSamples p (trainTriples s1 s2 p data)))
    have hPc : P.nc = 2 := hPi.nc
    have hu : usedSamples q (trainTriples t1 t2 q data) = usedSamples p (trainTriples s1 s2 p data) := by
      unfold usedSamples
      rw [ht, h3.nr]
    have hg : gram2 t1 t2 n (usedSamples q (trainTriples t1 t2 q data)) =
        gram2 s1 s2 n (usedSamples p (trainTriples s1 s2 p data)) := by
      rw [hu]
      unfold gram2
      rw [h1.vec, h2.vec]
    rw [trainWeighted_ok env c a0 b0 hc data args s1 s2 p n hx w1 w2 w3 hn n1 n2 n3 hv P hP hPc,
      trainWeighted_ok env c a0 b0 hc data args' t1 t2 q n hx' w1' w2' w3' hn (by rw [← h1.nc]; exact n1) (by rw [← h2.nc]; exact n2)
        (by rw [← h3.nc]; exact n3) (by rw [← ht]; exact hv) P (by rw [hg]; exact hP) hPc, hu]
    unfold dotsOf
    rw [h1.vec, h2.vec, h3.vec, h3.cols]

theorem ridge_class {env : Env} (henv : env.Ideal) (a b : Mat ℝ) (lam : ℝ) (ic : Bool) (hr : a.nr = b.nr)
    (h1 : 0 < a.nr) (h2 : 0 < a.nc) (h3 : 0 < b.nc) : ∃ (X : Mat ℝ) (tr err : ℝ), ∀ ty,
      ridgeRegression env ⟨ty, a⟩ ⟨ty, b⟩ lam ic = .ok (⟨ty, X⟩, tr, err) := by
  obtain ⟨P, hP, hpin⟩ := henv.pinv (ridgeGram a lam ic)
  exact ⟨(P.mul (design a ic).transpose).mul b, ((design a ic).transpose.had (P.mul (design a ic).transpose)).total,
    (⟨.dense, ((design a ic).mul ((P.mul (design a ic).transpose).mul b)).sub b⟩ : TMat ℝ).norm,
    fun ty => ridgeRegression_ok env ⟨ty, a⟩ ⟨ty, b⟩ lam ic rfl hr h1 h2 h3 P hP hpin.nr hpin.nc⟩

theorem gcvLoop_class {env : Env} (henv : env.Ideal) (a b : Mat ℝ) (ic : Bool) (hr : a.nr = b.nr)
    (h1 : 0 < a.nr) (h2 : 0 < a.nc) (h3 : 0 < b.nc) (rng : List ℝ) (st : Learner.GcvState) : ∃ st', ∀ ty,
      Learner.gcvLoop env ⟨ty, a⟩ ⟨ty, b⟩ ic st rng = .ok st' := by
  induction rng generalizing st with
  | nil => exact ⟨st, fun _ => rfl⟩
  | cons q rng ih =>
    obtain ⟨X, tr, err, hX⟩ := ridge_class henv a b q ic hr h1 h2 h3
    have : ∃ st1, ∀ ty, Learner.gcvStep env ⟨ty, a⟩ ⟨ty, b⟩ ic st q = .ok st1 := by
      simp only [Learner.gcvStep, hX, ok_bind, TMat.nr]
      split <;> split <;> exact ⟨_, fun _ => rfl⟩
    obtain ⟨st1, h⟩ := this
    obtain ⟨st2, h'⟩ := ih st1
    exact ⟨st2, fun ty => by unfold Learner.gcvLoop; rw [h ty]; exact h' ty⟩

theorem learner_class {env : Env} (henv : env.Ideal) {l : Learner} (hl : l.Built) (a b : Mat ℝ) (hr : a.nr = b.nr)
    (h1 : 0 < a.nr) (h2 : 0 < a.nc) (h3 : 0 < b.nc) : ∃ X, ∀ ty, l.train env ⟨ty, a⟩ ⟨ty, b⟩ = .ok ⟨ty, X⟩ := by
  cases l with
  | lstsq ic => exact C147_dense_sparse env henv a b ic hr h1 h2 h3
  | ridge ic cv rng par =>
    have fixed : ∀ lam, ∃ X : Mat ℝ, ∀ ty, (ridgeRegression env ⟨ty, a⟩ ⟨ty, b⟩ lam ic >>= fun r => Except.ok r.1) = .ok ⟨ty, X⟩ := by
      intro lam
      obtain ⟨X, tr, err, hX⟩ := ridge_class henv a b lam ic hr h1 h2 h3
      exact ⟨X, fun ty => by rw [hX ty]; rfl⟩
    cases cv with
    | true =>
      obtain ⟨st, hst⟩ := gcvLoop_class henv a b ic hr h1 h2 h3 rng ⟨0, none, none⟩
      obtain ⟨X, hX⟩ := fixed st.minParam
      exact ⟨X, fun ty => by show (Learner.gcvLoop _ _ _ _ _ _ >>= _) = _; rw [hst ty]; exact hX ty⟩
    | false =>
      rcases hl.ridge with h | ⟨lam, rfl⟩
      · cases h
      · exact fixed lam

/-- **C161** … and a full additive model with any learner, cross-validated or not: the two learned matrices have the same numbers. (With a mixture of classes the code works on dense copies; the classes `ty`, `ty'` of the results
follow from those of the inputs.) -/
theorem C161_train_full (env : Env) (henv : env.Ideal) (c : Composer κ) (at0 bt0 : Option (TMat ℝ)) (i0 : Bool) (l : Learner) (hl : l.Built)
    (hc : c.model = .fullAdditive at0 bt0 i0 (some l))
    (data : List (Triple κ)) (args args' : ArgSpace κ) (s1 s2 p t1 t2 q : Space κ) (hx : args.extract = .ok (s1, s2))
    (hx' : args'.extract = .ok (t1, t2)) (h1 : Twin s1 t1) (h2 : Twin s2 t2) (h3 : Twin p q) (w1 : s1.WF) (w2 : s2.WF) (w3 : p.WF)
    (w1' : t1.WF) (w2' : t2.WF) (w3' : q.WF) (n1 : 0 < s1.mat.nc) (n2 : 0 < s2.mat.nc) (n3 : 0 < p.mat.nc) :
    (∃ e, c.train env data args p = .error e ∧ c.train env data args' q = .error e) ∨
    ∃ A B ty ty' ic cols, c.train env data args p = .ok ⟨.fullAdditive (some ⟨ty, A⟩) (some ⟨ty, B⟩) ic (some l), cols⟩ ∧
      c.train env data args' q = .ok ⟨.fullAdditive (some ⟨ty', A⟩) (some ⟨ty', B⟩) ic (some l), cols⟩ := by
  have ht := h1.train_triples h2 h3 data
  have htr : c.model.trainable = true := by rw [hc]; rfl
  by_cases hv : trainTriples s1 s2 p data = []
  · rw [train_nothing env c data args s1 s2 p hx w1 w2 w3 hv htr,
      train_nothing env c data args' t1 t2 q hx' w1' w2' w3' (by rw [← ht]; exact hv) htr]
    exact .inl ⟨_, rfl, rfl⟩
  · right
    rw [train_reduce env c data args s1 s2 p hx w1 w2 w3 hv htr,
      train_reduce env c data args' t1 t2 q hx' w1' w2' w3' (by rw [← ht]; exact hv) htr, hc,
      full_trainOn env w1 w2 w3 n1 n2 n3 _ hv (fun t m => trainTriples_mem m),
      full_trainOn env w1' w2' w3' (by rw [← h1.nc]; exact n1) (by rw [← h2.nc]; exact n2) (by rw [← h3.nc]; exact n3) _
        (by rw [← ht]; exact hv) (fun t m => trainTriples_mem m), ← ht, ← h1.vec, ← h2.vec, ← h3.vec, ← h3.cols, ← h1.nc, ← h2.nc,
      ← h3.nc]
    have hpos : 0 < (trainTriples s1 s2 p data).length := List.length_pos_iff.2 hv
    generalize trainTriples s1 s2 p data = v at hpos
    have hpos2 : 0 < s1.mat.nc + s2.mat.nc := by omega
    obtain ⟨X, hX, hr⟩ : ∃ X : Mat ℝ, (∀ ty, l.train env ⟨ty, rowsMat (s1.mat.nc + s2.mat.nc)
        (fun t => joinVec s1.mat.nc (s1.vecOf t.1) (s2.vecOf t.2.1)) v⟩
        ⟨ty, rowsMat p.mat.nc (fun t : Triple κ => p.vecOf t.2.2) v⟩ = .ok ⟨ty, X⟩) ∧ s1.mat.nc < X.nr ∧ 0 < X.nc := by
      obtain ⟨X, hX⟩ := learner_class henv hl (rowsMat (s1.mat.nc + s2.mat.nc)
        (fun t => joinVec s1.mat.nc (s1.vecOf t.1) (s2.vecOf t.2.1)) v)
        (rowsMat p.mat.nc (fun t : Triple κ => p.vecOf t.2.2) v) rfl hpos hpos2 n3
      obtain ⟨Y, hY, _, hY1, hY2, _⟩ := C131_learner env henv l hl ⟨.dense, rowsMat (s1.mat.nc + s2.mat.nc)
        (fun t => joinVec s1.mat.nc (s1.vecOf t.1) (s2.vecOf t.2.1)) v⟩
        ⟨.dense, rowsMat p.mat.nc (fun t : Triple κ => p.vecOf t.2.2) v⟩ rfl rfl hpos hpos2 n3
      have e := ok_inj ((hX .dense).symm.trans hY)
      subst e
      refine ⟨X, hX, ?_, ?_⟩
      · have : X.nr = numCoef (rowsMat (s1.mat.nc + s2.mat.nc)
          (fun t => joinVec s1.mat.nc (s1.vecOf t.1) (s2.vecOf t.2.1)) v) l.hasIntercept := hY1
        have h' : (rowsMat (s1.mat.nc + s2.mat.nc)
          (fun t => joinVec s1.mat.nc (s1.vecOf t.1) (s2.vecOf t.2.1)) v).nc = s1.mat.nc + s2.mat.nc := rfl
        rw [this]
        unfold numCoef
        rw [h']
        split <;> omega
      · have : X.nc = p.mat.nc := hY2
        omega
    simp only [hX, ok_bind]
    obtain ⟨hr, hcp⟩ := hr
    have hsp : ∀ ty, splitRows ⟨ty, X⟩ s1.mat.nc = .ok (⟨ty, X.selRows ((List.range X.nr).take s1.mat.nc)⟩,
        ⟨ty, X.selRows ((List.range X.nr).drop s1.mat.nc)⟩) := by
      intro ty
      unfold splitRows
      simp only [TMat.nr]
      have a1 : 0 < (X.selRows ((List.range X.nr).take s1.mat.nc)).nr := by simp [Mat.selRows_nr]; omega
      have a2 : 0 < (X.selRows ((List.range X.nr).drop s1.mat.nc)).nr := by simp [Mat.selRows_nr]; omega
      have a3 : 0 < (X.selRows ((List.range X.nr).take s1.mat.nc)).nc := hcp
      have a4 : 0 < (X.selRows ((List.range X.nr).drop s1.mat.nc)).nc := hcp
      rw [TMat.wrap_ok_pos a1 a3, ok_bind, TMat.wrap_ok_pos a2 a4]
      rfl
    simp only [hsp, ok_bind]
    exact ⟨_, _, _, _, _, _, rfl, rfl⟩

/-- **C161** … and a lexical function model learns the same functions for the same words. -/
theorem C161_train_lexical (env : Env) (henv : env.Ideal) (le : κ → κ → Bool)
    (htrans : ∀ a b c, le a b = true → le b c = true → le a c = true) (htotal : ∀ a b, (le a b || le b a) = true)
    (hanti : ∀ a b, le a b = true → le b a = true → a = b) (m : LexFun κ) (hl : m.learner.Built)
    (data : List (Triple κ)) (arg phrase arg' phrase' : Space κ) (h1 : Twin arg arg') (h2 : Twin phrase phrase') (ha : arg.WF)
    (hp : phrase.WF) (ha' : arg'.WF) (hp' : phrase'.WF) (na : 0 < arg.mat.nc) (np : 0 < phrase.mat.nc)
    (hsh : arg.elemShape = [arg.mat.nc]) (hms : 1 ≤ m.minSamples) (hd : data ≠ []) :
    (m.train env le data arg phrase = .error .valueError ∧ m.train env le data arg' phrase' = .error .valueError) ∨
    ∃ r r' fs fs', m.train env le data arg phrase = .ok r ∧ m.train env le data arg' phrase' = .ok r' ∧ r.functions = some fs ∧
      r'.functions = some fs' ∧ r.columns = r'.columns ∧ r.intercept = r'.intercept ∧ fs.elemShape = fs'.elemShape ∧
      (∀ f, f ∈ fs.id2row ↔ f ∈ fs'.id2row) ∧
      ∀ f ∈ fs.id2row, ∀ v, ∀ j < phrase.mat.nc, lexVec arg.mat.nc m.learner.hasIntercept (fs.vecOf f) v j =
        lexVec arg.mat.nc m.learner.hasIntercept (fs'.vecOf f) v j := by
  have hs : ∀ f, lexSamples arg' phrase' data f = lexSamples arg phrase data f := by
    intro f; unfold lexSamples; rw [h1.rows, h2.rows]
  by_cases hex : ∃ f, m.minSamples ≤ ((lexSamples arg phrase data f).length : ℤ)
  · right
    have hX : ∀ f, ∃ X : Mat ℝ, m.minSamples ≤ ((lexSamples arg phrase data f).length : ℤ) →
        (∀ ty, m.learner.train env ⟨ty, argRows arg (lexSamples arg phrase data f)⟩
          ⟨ty, phraseRows phrase (lexSamples arg phrase data f)⟩ = .ok ⟨ty, X⟩) ∧
        X.nr = (if m.learner.hasIntercept then arg.mat.nc + 1 else arg.mat.nc) ∧ X.nc = phrase.mat.nc := by
      intro f
      by_cases hf : m.minSamples ≤ ((lexSamples arg phrase data f).length : ℤ)
      · have hpos : 0 < (lexSamples arg phrase data f).length := by omega
        obtain ⟨X, hX⟩ := learner_class henv hl (argRows arg (lexSamples arg phrase data f))
          (phraseRows phrase (lexSamples arg phrase data f)) rfl hpos na np
        obtain ⟨Y, hY, _, hY1, hY2, _⟩ := C131_learner env henv m.learner hl ⟨.dense, argRows arg (lexSamples arg phrase data f)⟩
          ⟨.dense, phraseRows phrase (lexSamples arg phrase data f)⟩ rfl rfl hpos na np
        have e := ok_inj ((hX .dense).symm.trans hY)
        subst e
        exact ⟨X, fun _ => ⟨hX, hY1, hY2⟩⟩
      · exact ⟨Mat.of 0 0 (fun _ _ => 0), fun h => absurd h hf⟩
    choose X hX using hX
    have ea : ∀ l, argRows arg' l = argRows arg l := by
      intro l; unfold argRows; rw [← h1.nc, ← h1.vec]
    have ep : ∀ l, Dissect.phraseRows phrase' l = Dissect.phraseRows phrase l := by
      intro l; unfold Dissect.phraseRows; rw [← h2.nc, ← h2.vec]
    obtain ⟨r, fs, k1, k2, _, k3, k4, k5, k6, _, k7⟩ := C46_train env le htrans htotal hanti m data arg phrase ha hp na np hsh hms hex
      (fun f => ⟨lexTy arg phrase, X f⟩) (fun f hf => ⟨(hX f hf).1 _, rfl, (hX f hf).2.1, (hX f hf).2.2⟩)
    obtain ⟨r', fs', l1, l2, _, l3, l4, l5, l6, _, l7⟩ := C46_train env le htrans htotal hanti m data arg' phrase' ha' hp'
      (by rw [← h1.nc]; exact na) (by rw [← h2.nc]; exact np) (by rw [← h1.shape, ← h1.nc]; exact hsh) hms
      (by obtain ⟨f, hf⟩ := hex; exact ⟨f, by rw [hs]; exact hf⟩)
      (fun f => ⟨lexTy arg' phrase', X f⟩) (fun f hf => by
        rw [hs] at hf ⊢
        rw [ea, ep, ← h1.nc, ← h2.nc]
        exact ⟨(hX f hf).1 _, rfl, (hX f hf).2.1, (hX f hf).2.2⟩)
    refine ⟨r, r', fs, fs', k1, l1, k2, l2, by rw [k3, l3, h2.cols], by rw [k4, l4], by rw [k5, l5, h2.shape, h1.nc],
      fun f => by rw [k6, l6, hs], fun f hf v j hj => ?_⟩
    have hf' : f ∈ fs'.id2row := by rw [l6, hs, ← k6]; exact hf
    have b := l7 f hf' v j (by rw [← h2.nc]; exact hj)
    rw [k7 f hf v j hj, h1.nc, b]
  · left
    exact ⟨C46_no_function env le htrans htotal hanti m data arg phrase ha hp hd hms hex,
      C46_no_function env le htrans htotal hanti m data arg' phrase' ha' hp' hd hms (by simpa only [hs] using hex)⟩

/-! ### Factorisations -/

theorem exOne_takeCols : exOne.takeCols 2 = exOne := by
  refine Mat.ext' rfl rfl (fun i j hi hj => ?_)
  have hj' : j < 2 := hj
  unfold Mat.takeCols
  rw [Mat.selCols_get_some (c := j)]
  show ((List.range 2).take 2)[j]? = some j
  interval_cases j <;> rfl

theorem exOne_takeRows : exOne.takeRows 2 = exOne := by
  refine Mat.ext' rfl rfl (fun i j hi hj => ?_)
  have hi' : i < 2 := hi
  unfold Mat.takeRows
  rw [Mat.selRows_get_some (r := i)]
  show ((List.range 2).take 2)[i]? = some i
  interval_cases i <;> rfl

theorem exOne_transpose : exOne.transpose = exOne := by
  refine Mat.ext' rfl rfl (fun i j hi hj => ?_)
  have hi' : i < 2 := hi
  have hj' : j < 2 := hj
  rw [Mat.transpose_get]
  interval_cases i <;> interval_cases j <;> simp [exOne, Mat.of_get]

theorem exOne_positive : TMat.countEntries exOne (fun x => decide (0 < x)) = 2 := by
  unfold TMat.countEntries
  have h : exOne.nr = 2 ∧ exOne.nc = 2 := ⟨rfl, rfl⟩
  rw [h.1, h.2]
  simp only [Finset.sum_range_succ, Finset.sum_range_zero]
  simp [exOne, Mat.of_get]

theorem exOne_stored : TMat.countEntries exOne (fun x => decide (x ≠ 0)) = 2 := by
  unfold TMat.countEntries
  have h : exOne.nr = 2 ∧ exOne.nc = 2 := ⟨rfl, rfl⟩
  rw [h.1, h.2]
  simp only [Finset.sum_range_succ, Finset.sum_range_zero]
  simp [exOne, Mat.of_get]

/-- **C161** (counterexample) A truncated singular value decomposition does depend on the storage: the matrix with rows (3, 0) and
(0, 2), stored densely and sparsely, is reduced to vectors of opposite signs by one and the same decomposition (C34: the dense
code compares the number of positive cells with the number of all cells, the sparse code with the number of cells it stores). -/
theorem C161_svd_refuted : ∃ (env : Env) (A : Mat ℝ) (red red' V V' : TMat ℝ) (u : Mat ℝ) (s : List ℝ) (vt : Mat ℝ),
    IsSvd A u s vt ∧ env.npSvd A = .ok (u, s, vt) ∧ env.sparseSvd A 2 = .ok (u.transpose, s, vt) ∧
    (DimRedT.svd 2).apply env ⟨.dense, A⟩ = .ok (red, V) ∧ (DimRedT.svd 2).apply env ⟨.sparse, A⟩ = .ok (red', V') ∧
    red.val.get 0 0 = -3 ∧ red'.val.get 0 0 = 3 := by
  have p1 : 0 < exOne.nr := by norm_num [exOne]
  have p2 : 0 < exOne.nc := by norm_num [exOne]
  have hf : (([3, 2] : List ℝ).filter (fun x => decide (svdTol < x))).length = 2 := by
    norm_num [svdTol, List.filter]
  have ofn : ∀ ty, TMat.ofNumpy ty exOne = .ok ⟨ty, exOne⟩ := by
    intro ty
    unfold TMat.ofNumpy
    cases ty
    · rfl
    · have h : exOne.nr = 2 ∧ exOne.nc = 2 := ⟨rfl, rfl⟩
      simp [h.1, h.2]
  have hw : ∀ ty, TMat.wrap ty exOne = .ok ⟨ty, exOne⟩ := fun ty => TMat.wrap_ok_pos p1 p2
  have hd : signFix ⟨.dense, exOne⟩ ⟨.dense, exOne⟩ = .ok (⟨.dense, exOne.neg⟩, ⟨.dense, exOne.neg⟩) := by
    unfold signFix
    have : (⟨.dense, exOne⟩ : TMat ℝ).isMostlyPositive = false := by
      unfold TMat.isMostlyPositive
      simp only [exOne_positive, TMat.nr, TMat.nc]
      rfl
    rw [this]
    rfl
  have hs : signFix ⟨.sparse, exOne⟩ ⟨.sparse, exOne⟩ = .ok (⟨.sparse, exOne⟩, ⟨.sparse, exOne⟩) := by
    unfold signFix
    have : (⟨.sparse, exOne⟩ : TMat ℝ).isMostlyPositive = true := by
      unfold TMat.isMostlyPositive
      simp only [exOne_positive, exOne_stored]
      rfl
    rw [this]
    rfl
  have e1 : svd exEnv ⟨.dense, exDiag⟩ 2 = .ok (⟨.dense, exOne.neg⟩, ⟨[2], [3, 2]⟩, ⟨.dense, exOne.neg⟩) := by
    show denseSvd exEnv ⟨.dense, exDiag⟩ 2 = _
    unfold denseSvd
    simp only [exEnv, ok_bind, hf]
    rw [show min (min exOne.nc 2) 2 = 2 from rfl, exOne_takeCols, exOne_takeRows, exOne_transpose, ofn]
    simp only [ok_bind, hd]
    rfl
  have e2 : svd exEnv ⟨.sparse, exDiag⟩ 2 = .ok (⟨.sparse, exOne⟩, ⟨[2], [3, 2]⟩, ⟨.sparse, exOne⟩) := by
    show sparseSvd exEnv ⟨.sparse, exDiag⟩ 2 = _
    unfold sparseSvd
    simp only [exEnv, ok_bind]
    rw [exOne_transpose, ofn]
    simp only [ok_bind, TMat.nc]
    rw [show min exOne.nc 2 = 2 from rfl, exOne_takeCols, hw]
    simp only [ok_bind, hs]
    rfl
  refine ⟨exEnv, exDiag, ⟨.dense, exOne.neg.scaleCols (fun j => ([3, 2] : List ℝ).getD j 0)⟩,
    ⟨.sparse, exOne.scaleCols (fun j => ([3, 2] : List ℝ).getD j 0)⟩, ⟨.dense, exOne.neg⟩, ⟨.sparse, exOne⟩, exOne, [3, 2], exOne,
    ex_isSvd, rfl, by rw [exOne_transpose]; rfl, ?_, ?_, ?_, ?_⟩
  · show (do let (u, s, v) ← svd exEnv ⟨.dense, exDiag⟩ 2; _) = _
    rw [e1]
    rfl
  · show (do let (u, s, v) ← svd exEnv ⟨.sparse, exDiag⟩ 2; _) = _
    rw [e2]
    rfl
  · simp [exOne, Mat.of_get, Mat.neg]
  · simp [exOne, Mat.of_get]

end
end Dissect
