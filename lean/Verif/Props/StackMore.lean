import Verif.Props.StackSim
import Verif.Props.ComposeMore
import Verif.Props.RowLaws

/-! # C159: stacking spaces — grouping, order, row-wise scalings, composition -/

namespace Dissect
open Finset
noncomputable section
variable {κ : Type} [DecidableEq κ]

/-- Two spaces with the same row labels in the same order, the same column labels and the same vectors. -/
structure SameContent (s t : Space κ) : Prop where
  rows : s.id2row = t.id2row
  cols : s.id2col = t.id2col
  width : s.mat.nc = t.mat.nc
  vectors : ∀ w ∈ s.id2row, ∀ j, s.vecOf w j = t.vecOf w j

theorem stack_vec {s1 s2 s : Space κ} (h1 : s1.WF) (h2 : s2.WF) (h : Space.vstack s1 s2 = .ok s) :
    (∀ w ∈ s1.id2row, s.vecOf w = s1.vecOf w) ∧ (∀ w ∈ s2.id2row, s.vecOf w = s2.vecOf w) := by
  obtain ⟨wf, _, _, _, _, g1, g2⟩ := C04_words_keep_vectors s1 s2 s h1 h2 h
  constructor
  · intro w hw
    obtain ⟨i', hi', hg⟩ := g1 _ w (Space.hasWord_idxOf hw)
    rw [Space.vecOf_word wf hi']
    exact funext hg
  · intro w hw
    obtain ⟨i', hi', hg⟩ := g2 _ w (Space.hasWord_idxOf hw)
    rw [Space.vecOf_word wf hi']
    exact funext hg

theorem stack_cond {s1 s2 s : Space κ} (h1 : s1.WF) (h : Space.vstack s1 s2 = .ok s) :
    s1.mat.nc = s2.mat.nc ∧ s1.id2col = s2.id2col ∧ ∀ w ∈ s2.id2row, w ∉ s1.id2row := by
  refine ⟨?_, ?_, ?_⟩
  · by_contra hc
    rw [C04_rejects s1 s2 h1 (.inl hc)] at h
    cases h
  · by_contra hc
    rw [C04_rejects s1 s2 h1 (.inr (.inl hc))] at h
    cases h
  · intro w hw hw'
    rw [C04_rejects s1 s2 h1 (.inr (.inr ⟨w, hw, hw'⟩))] at h
    cases h

theorem stack_plain {s1 s2 s : Space κ} (h1 : s1.WF) (hp : s1.PlainRows) (h : Space.vstack s1 s2 = .ok s) : s.PlainRows := by
  unfold Space.vstack at h
  split at h
  · cases h
  · split at h
    · cases h
    · simp only [bind_eq_ok] at h
      obtain ⟨_, ha, l, _, h⟩ := h
      have ha' : addItemsToDict s1.row2id s2.id2row = ((addItemsToDict s1.row2id s2.id2row).1, .ok ()) :=
        Prod.ext rfl ha
      obtain ⟨hl, hpos⟩ := h1.rows.append hp ha'
      split at h
      · simp only [bind_eq_ok] at h
        obtain ⟨m, _, h⟩ := h
        obtain ⟨_, _, _, _, _, e6, _⟩ := Space.new_eq_ok h
        rw [Space.resolveMap_some hl] at e6
        have e := ok_inj e6
        intro w v hv
        rw [← e] at hv
        exact hpos w v hv
      · cases h

/-- A space that can be stacked: well-formed, created with its own row dictionary, not empty. -/
structure Stackable (s : Space κ) : Prop where
  wf : s.WF
  plain : s.PlainRows
  nr : 0 < s.mat.nr
  nc : 0 < s.mat.nc

theorem Stackable.vstack {s1 s2 s : Space κ} (h1 : Stackable s1) (h2 : Stackable s2) (h : Space.vstack s1 s2 = .ok s) :
    Stackable s := by
  obtain ⟨wf, rows, _, _, hnc, _⟩ := C04_words_keep_vectors s1 s2 s h1.wf h2.wf h
  refine ⟨wf, stack_plain h1.wf h1.plain h, ?_, by rw [hnc]; exact h1.nc⟩
  have e := wf.nrows
  have e1 := h1.wf.nrows
  have := h1.nr
  rw [e, rows, List.length_append]
  omega

theorem stack_iff {s1 s2 : Space κ} (h1 : Stackable s1) (h2 : Stackable s2) : (∃ s, Space.vstack s1 s2 = .ok s) ↔
    s1.mat.nc = s2.mat.nc ∧ s1.id2col = s2.id2col ∧ ∀ w ∈ s2.id2row, w ∉ s1.id2row :=
  C04_accepts_iff s1 s2 h1.wf h2.wf h1.plain ⟨h1.nr, h1.nc⟩ ⟨h2.nr, h2.nc⟩

/-- **C159** Stacking three spaces: the grouping does not matter, neither for whether it works nor for the result. -/
theorem C159_grouping (s1 s2 s3 : Space κ) (h1 : Stackable s1) (h2 : Stackable s2) (h3 : Stackable s3) :
    ((∃ s12 s, Space.vstack s1 s2 = .ok s12 ∧ Space.vstack s12 s3 = .ok s) ↔
      (∃ s23 s, Space.vstack s2 s3 = .ok s23 ∧ Space.vstack s1 s23 = .ok s)) ∧
    ∀ s12 s s23 s', Space.vstack s1 s2 = .ok s12 → Space.vstack s12 s3 = .ok s → Space.vstack s2 s3 = .ok s23 →
      Space.vstack s1 s23 = .ok s' → SameContent s s' := by
  constructor
  · constructor
    · rintro ⟨s12, s, e1, e2⟩
      have h12 := h1.vstack h2 e1
      obtain ⟨a1, a2, a3⟩ := stack_cond h1.wf e1
      obtain ⟨_, rows, cols, _, nc, _⟩ := C04_words_keep_vectors s1 s2 s12 h1.wf h2.wf e1
      obtain ⟨b1, b2, b3⟩ := stack_cond h12.wf e2
      rw [rows] at b3
      obtain ⟨s23, e3⟩ := (stack_iff h2 h3).2 ⟨by omega, by rw [← a2, ← cols, b2], fun w hw hw' =>
        b3 w hw (List.mem_append_right _ hw')⟩
      obtain ⟨_, rows', cols', _, nc', _⟩ := C04_words_keep_vectors s2 s3 s23 h2.wf h3.wf e3
      obtain ⟨s', e4⟩ := (stack_iff h1 (h2.vstack h3 e3)).2 ⟨by omega, by rw [cols', a2], fun w hw hw' => by
        rw [rows'] at hw
        rcases List.mem_append.1 hw with hw | hw
        · exact a3 w hw hw'
        · exact b3 w hw (List.mem_append_left _ hw')⟩
      exact ⟨s23, s', e3, e4⟩
    · rintro ⟨s23, s, e3, e4⟩
      have h23 := h2.vstack h3 e3
      obtain ⟨a1, a2, a3⟩ := stack_cond h2.wf e3
      obtain ⟨_, rows, cols, _, nc, _⟩ := C04_words_keep_vectors s2 s3 s23 h2.wf h3.wf e3
      obtain ⟨b1, b2, b3⟩ := stack_cond h1.wf e4
      rw [rows] at b3
      obtain ⟨s12, e1⟩ := (stack_iff h1 h2).2 ⟨by omega, by rw [b2, cols], fun w hw =>
        b3 w (List.mem_append_left _ hw)⟩
      obtain ⟨_, rows', cols', _, nc', _⟩ := C04_words_keep_vectors s1 s2 s12 h1.wf h2.wf e1
      obtain ⟨s', e2⟩ := (stack_iff (h1.vstack h2 e1) h3).2 ⟨by omega, by rw [cols', b2, cols, a2], fun w hw hw' => by
        rw [rows'] at hw'
        rcases List.mem_append.1 hw' with hw' | hw'
        · exact b3 w (List.mem_append_right _ hw) hw'
        · exact a3 w hw hw'⟩
      exact ⟨s12, s', e1, e2⟩
  · intro s12 s s23 s' e1 e2 e3 e4
    have h12 := h1.vstack h2 e1
    have h23 := h2.vstack h3 e3
    obtain ⟨_, r1, c1, _, n1, _⟩ := C04_words_keep_vectors s1 s2 s12 h1.wf h2.wf e1
    obtain ⟨_, r2, c2, _, n2, _⟩ := C04_words_keep_vectors s12 s3 s h12.wf h3.wf e2
    obtain ⟨_, r3, c3, _, n3, _⟩ := C04_words_keep_vectors s2 s3 s23 h2.wf h3.wf e3
    obtain ⟨_, r4, c4, _, n4, _⟩ := C04_words_keep_vectors s1 s23 s' h1.wf h23.wf e4
    refine ⟨by rw [r2, r1, r4, r3, List.append_assoc], by rw [c2, c1, c4], by rw [n2, n1, n4], fun w hw j => ?_⟩
    rw [r2, r1, List.append_assoc] at hw
    rcases List.mem_append.1 hw with hw | hw
    · rw [(stack_vec h12.wf h3.wf e2).1 w (by rw [r1]; exact List.mem_append_left _ hw), (stack_vec h1.wf h2.wf e1).1 w hw,
        (stack_vec h1.wf h23.wf e4).1 w hw]
    · rw [(stack_vec h1.wf h23.wf e4).2 w (by rw [r3]; exact hw)]
      rcases List.mem_append.1 hw with hw | hw
      · rw [(stack_vec h12.wf h3.wf e2).1 w (by rw [r1]; exact List.mem_append_right _ hw),
          (stack_vec h1.wf h2.wf e1).2 w hw, (stack_vec h2.wf h3.wf e3).1 w hw]
      · rw [(stack_vec h12.wf h3.wf e2).2 w hw, (stack_vec h2.wf h3.wf e3).2 w hw]

/-- **C159** Stacking in the other order: the same words with the same vectors. -/
theorem C159_order (s1 s2 : Space κ) (h1 : Stackable s1) (h2 : Stackable s2) :
    ((∃ s, Space.vstack s1 s2 = .ok s) ↔ ∃ s, Space.vstack s2 s1 = .ok s) ∧
    ∀ s s', Space.vstack s1 s2 = .ok s → Space.vstack s2 s1 = .ok s' →
      s.id2col = s'.id2col ∧ s.id2row.Perm s'.id2row ∧ ∀ w ∈ s.id2row, ∀ j, s.vecOf w j = s'.vecOf w j := by
  constructor
  · rw [stack_iff h1 h2, stack_iff h2 h1]
    constructor
    · rintro ⟨a, b, c⟩
      exact ⟨a.symm, b.symm, fun w hw hw' => c w hw' hw⟩
    · rintro ⟨a, b, c⟩
      exact ⟨a.symm, b.symm, fun w hw hw' => c w hw' hw⟩
  · intro s s' e e'
    obtain ⟨_, r1, c1, _, n1, _⟩ := C04_words_keep_vectors s1 s2 s h1.wf h2.wf e
    obtain ⟨_, r2, c2, _, n2, _⟩ := C04_words_keep_vectors s2 s1 s' h2.wf h1.wf e'
    refine ⟨by rw [c1, c2, (stack_cond h1.wf e).2.1], by rw [r1, r2]; exact List.perm_append_comm, fun w hw j => ?_⟩
    rw [r1] at hw
    rcases List.mem_append.1 hw with hw | hw
    · rw [(stack_vec h1.wf h2.wf e).1 w hw, (stack_vec h2.wf h1.wf e').2 w hw]
    · rw [(stack_vec h1.wf h2.wf e).2 w hw, (stack_vec h2.wf h1.wf e').1 w hw]

/-- The scalings that look at one row at a time. -/
def ScalingT.RowWise : ScalingT → Prop
  | .plog => True
  | .rowNorm _ => True
  | _ => False

/-- What such a scaling does to a row of `n` components. -/
def ScalingT.rowFn : ScalingT → RowMap
  | .plog => plogWMap
  | .rowNorm c => rowNormMap c
  | _ => RowMap.fail

theorem rowWise_vec {env : Env} {s s' : Space κ} {st : ScalingT} (hst : st.RowWise) (hs : Stackable s)
    (h : s.apply env (.scaling st) = .ok s') (w : κ) (hw : w ∈ s.id2row) :
    s'.vecOf w = fun j => if j < s.mat.nc then st.rowFn.row s.mat.nc (s.vecOf w) j else 0 := by
  obtain ⟨op, m, hop, op', h1, h2, h3, _, _, _, h7, _⟩ := apply_eq_ok h
  obtain ⟨rfl, ha⟩ := opApply_scaling hop
  have hM : st.rowFn.Models (fun m => st.apply m none) ∧ ∀ n, st.rowFn.width n = n := by
    rcases st with _ | _ | _ | _ | c | c
    · exact hst.elim
    · exact hst.elim
    · exact hst.elim
    · exact ⟨models_plogW, fun _ => rfl⟩
    · exact ⟨models_rowNorm c, fun _ => rfl⟩
    · exact hst.elim
  have hlt : s.id2row.idxOf w < s.mat.nr := by
    rw [hs.wf.nrows]
    exact List.idxOf_lt_length_of_mem hw
  unfold Space.vecOf
  rw [h3, h2, (hM.1.eq_ok hs.nr ha).2, RowMap.out_row _ _ hlt, hM.2]

theorem rowWise_ok (env : Env) {s : Space κ} {st : ScalingT} (hst : st.RowWise) (hs : Stackable s) :
    ∃ s', s.apply env (.scaling st) = .ok s' ∧ Stackable s' ∧ s'.id2row = s.id2row ∧ s'.id2col = s.id2col ∧
      s'.mat.nc = s.mat.nc := by
  have hok : ∃ r, st.apply s.mat none = .ok r := by
    rcases st with _ | _ | _ | _ | c | c
    · exact hst.elim
    · exact hst.elim
    · exact hst.elim
    · exact ⟨_, (C17_plog s.mat hs.nr hs.nc).choose_spec.1⟩
    · exact ⟨_, (C18_row_normalization c s.mat hs.nr hs.nc).choose_spec.1⟩
    · exact hst.elim
  obtain ⟨r, hok⟩ := hok
  obtain ⟨_, e2, e3⟩ := applyT_shape hs.nr hok
  have hap : ∃ s', s.apply env (.scaling st) = .ok s' := by
    unfold Space.apply
    simp only [Trans.createOp, Op.apply, hok, ok_bind, pure_eq_ok]
    exact ⟨_, Space.new_ok (Space.resolveMap_some hs.wf.rows) (Space.resolveMap_some hs.wf.cols)
      (by rw [e2]; exact hs.wf.nrows) (fun hne => by rw [e3]; exact hs.wf.ncols hne) (by simp)⟩
  obtain ⟨s', hap⟩ := hap
  obtain ⟨wf, _, hrow, hsh, _⟩ := C05_apply env _ _ _ hap
  obtain ⟨k1, k2, k3, k4, k5⟩ := C05_scaling_keeps_columns env _ _ _ hs.nr hap
  obtain ⟨_, _, _, op', _, h2, h3, h4, _⟩ := apply_eq_ok hap
  refine ⟨s', hap, ⟨wf, ?_, by rw [k3]; exact hs.nr, by rw [k4]; exact hs.nc⟩, h3, k1, k4⟩
  intro w v hv
  rw [h4] at hv
  exact hs.plain w v hv

/-- **C159** PLOG and row normalisation may be applied to the parts before stacking or to the stacked space. -/
theorem C159_rowwise (env : Env) (s1 s2 s : Space κ) (h1 : Stackable s1) (h2 : Stackable s2)
    (h : Space.vstack s1 s2 = .ok s) (st : ScalingT) (hst : st.RowWise) :
    ∃ s' t1 t2 t, s.apply env (.scaling st) = .ok s' ∧ s1.apply env (.scaling st) = .ok t1 ∧
      s2.apply env (.scaling st) = .ok t2 ∧ Space.vstack t1 t2 = .ok t ∧ SameContent s' t := by
  have hs := h1.vstack h2 h
  obtain ⟨s', e, hs', r, c, n⟩ := rowWise_ok env hst hs
  obtain ⟨t1, e1, ht1, r1, c1, n1⟩ := rowWise_ok env hst h1
  obtain ⟨t2, e2, ht2, r2, c2, n2⟩ := rowWise_ok env hst h2
  obtain ⟨a1, a2, a3⟩ := stack_cond h1.wf h
  obtain ⟨t, e3⟩ := (stack_iff ht1 ht2).2 ⟨by omega, by rw [c1, c2, a2], by rw [r1, r2]; exact a3⟩
  obtain ⟨_, q1, q2, _, q3, _⟩ := C04_words_keep_vectors s1 s2 s h1.wf h2.wf h
  obtain ⟨_, p1, p2, _, p3, _⟩ := C04_words_keep_vectors t1 t2 t ht1.wf ht2.wf e3
  refine ⟨s', t1, t2, t, e, e1, e2, e3, by rw [r, q1, p1, r1, r2], by rw [c, q2, p2, c1], by omega, fun w hw j => ?_⟩
  rw [r] at hw
  rw [rowWise_vec hst hs e w hw]
  rw [q1] at hw
  rcases List.mem_append.1 hw with hw | hw
  · rw [(stack_vec h1.wf h2.wf h).1 w hw, (stack_vec ht1.wf ht2.wf e3).1 w (by rw [r1]; exact hw),
      rowWise_vec hst h1 e1 w hw, q3]
  · rw [(stack_vec h1.wf h2.wf h).2 w hw, (stack_vec ht1.wf ht2.wf e3).2 w (by rw [r2]; exact hw),
      rowWise_vec hst h2 e2 w hw, q3, a1]

theorem known_stack {s1 s2 s : Space κ} {data : List (Triple κ)} (rows : s.id2row = s1.id2row ++ s2.id2row)
    (hd : ∀ t ∈ data, t.1 ∉ s2.id2row ∧ t.2.1 ∉ s1.id2row) : knownTriples s s data = knownTriples s1 s2 data := by
  unfold knownTriples
  refine List.filter_congr fun t ht => ?_
  obtain ⟨d1, d2⟩ := hd t ht
  rw [decide_eq_decide, rows, List.mem_append, List.mem_append]
  tauto

/-- **C159** Composing with one stacked space is composing with its two parts, when no first constituent is a word of the
second part and no second constituent a word of the first: it works exactly when the other does … -/
theorem C159_compose_iff (c : Composer κ) (data : List (Triple κ)) (s1 s2 s : Space κ) (w : ℕ) (h1 : s1.WF) (h2 : s2.WF)
    (h : Space.vstack s1 s2 = .ok s) (hf : c.model.Fits s1.mat.nc s2.mat.nc w) (hc : c.ColumnsFit w)
    (hd : ∀ t ∈ data, t.1 ∉ s2.id2row ∧ t.2.1 ∉ s1.id2row) :
    (∃ r, (c.compose data (.one s)).2 = .ok r) ↔ ∃ r, (c.compose data (.tuple [s1, s2])).2 = .ok r := by
  obtain ⟨wf, rows, cols, _, nc, _⟩ := C04_words_keep_vectors s1 s2 s h1 h2 h
  obtain ⟨a1, a2, a3⟩ := stack_cond h1 h
  have hk := known_stack rows hd
  have hf' : c.model.Fits s.mat.nc s.mat.nc w := by rw [nc]; rw [← a1] at hf; exact hf
  have x1 : (ArgSpace.one s).extract = .ok (s, s) := (extract_iff _ _ _).2 (.inl ⟨rfl, rfl⟩)
  have x2 : (ArgSpace.tuple [s1, s2]).extract = .ok (s1, s2) := (extract_iff _ _ _).2 (.inr ⟨rfl, a2⟩)
  constructor
  · rintro ⟨r, hr⟩
    obtain ⟨hne, hnd, _⟩ := compose_success x1 wf wf hf' hc hr
    obtain ⟨r', hr', _⟩ := C38_compose c data _ s1 s2 w x2 h1 h2 hf hc (by rw [← hk]; exact hne) (by rw [← hk]; exact hnd)
    exact ⟨r', hr'⟩
  · rintro ⟨r', hr'⟩
    obtain ⟨hne, hnd, _⟩ := compose_success x2 h1 h2 hf hc hr'
    obtain ⟨r, hr, _⟩ := C38_compose c data _ s s w x1 wf wf hf' hc (by rw [hk]; exact hne) (by rw [hk]; exact hnd)
    exact ⟨r, hr⟩

/-- **C159** … and gives the same phrases with the same vectors. -/
theorem C159_compose (c : Composer κ) (data : List (Triple κ)) (s1 s2 s : Space κ) (w : ℕ) (h1 : s1.WF) (h2 : s2.WF)
    (h : Space.vstack s1 s2 = .ok s) (hf : c.model.Fits s1.mat.nc s2.mat.nc w) (hc : c.ColumnsFit w)
    (hd : ∀ t ∈ data, t.1 ∉ s2.id2row ∧ t.2.1 ∉ s1.id2row) (r r' : Space κ)
    (hr : (c.compose data (.one s)).2 = .ok r) (hr' : (c.compose data (.tuple [s1, s2])).2 = .ok r') :
    r.id2row = r'.id2row ∧ r.mat.nc = r'.mat.nc ∧
      ∀ k j, k < r.mat.nr → j < r.mat.nc → r.mat.val.get k j = r'.mat.val.get k j := by
  obtain ⟨wf, rows, cols, _, nc, _⟩ := C04_words_keep_vectors s1 s2 s h1 h2 h
  obtain ⟨a1, a2, a3⟩ := stack_cond h1 h
  have hk := known_stack rows hd
  have hf' : c.model.Fits s.mat.nc s.mat.nc w := by rw [nc]; rw [← a1] at hf; exact hf
  have x1 : (ArgSpace.one s).extract = .ok (s, s) := (extract_iff _ _ _).2 (.inl ⟨rfl, rfl⟩)
  have x2 : (ArgSpace.tuple [s1, s2]).extract = .ok (s1, s2) := (extract_iff _ _ _).2 (.inr ⟨rfl, a2⟩)
  obtain ⟨_, _, hcomp⟩ := compose_success x1 wf wf hf' hc hr
  obtain ⟨_, _, hcomp'⟩ := compose_success x2 h1 h2 hf hc hr'
  rw [hk] at hcomp
  refine ⟨by rw [hcomp.labels, hcomp'.labels], by rw [hcomp.width, hcomp'.width], fun k j hlt hj => ?_⟩
  rw [hcomp.wf.nrows, hcomp.labels, List.length_map] at hlt
  rw [hcomp.width] at hj
  have hg : (knownTriples s1 s2 data)[k]? = some (knownTriples s1 s2 data)[k] := List.getElem?_eq_getElem hlt
  obtain ⟨_, m1, m2⟩ := mem_known.1 (List.getElem_mem hlt)
  generalize (knownTriples s1 s2 data)[k] = t at hg m1 m2
  have g1 : s.vecOf t.1 = s1.vecOf t.1 := (stack_vec h1 h2 h).1 _ m1
  have g2 : s.vecOf t.2.1 = s2.vecOf t.2.1 := (stack_vec h1 h2 h).2 _ m2
  rw [hcomp.vectors k t.1 t.2.1 t.2.2 _ _ hg
      (Space.hasWord_idxOf (by rw [rows]; exact List.mem_append_left _ m1))
      (Space.hasWord_idxOf (by rw [rows]; exact List.mem_append_right _ m2)) j hj,
    hcomp'.vectors k t.1 t.2.1 t.2.2 _ _ hg (Space.hasWord_idxOf m1) (Space.hasWord_idxOf m2) j hj]
  unfold Space.vecOf at g1 g2
  rw [g1, g2, nc, a1]

end
end Dissect
