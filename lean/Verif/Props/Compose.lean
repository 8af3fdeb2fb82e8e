import Verif.Lemmas.Composition

/-! # Composition (C38–C43, C50) -/

namespace Dissect
open Finset
noncomputable section
variable {κ : Type} [DecidableEq κ]

/-- The pair of spaces of `arg_space` is accepted: one space used twice, or two spaces with the same column labels. -/
theorem extract_iff (args : ArgSpace κ) (s1 s2 : Space κ) :
    args.extract = .ok (s1, s2) ↔
      (args = .one s1 ∧ s2 = s1) ∨ (args = .tuple [s1, s2] ∧ s1.id2col = s2.id2col) := by
  unfold ArgSpace.extract
  split
  · rename_i s
    simp only [ne_eq, not_true_eq_false, if_false, Except.ok.injEq, Prod.mk.injEq, ArgSpace.one.injEq, reduceCtorEq,
      false_and, or_false]
    constructor
    · rintro ⟨rfl, rfl⟩; exact ⟨rfl, rfl⟩
    · rintro ⟨rfl, rfl⟩; exact ⟨rfl, rfl⟩
  · rename_i a b
    split
    · rename_i h
      simp only [reduceCtorEq, ArgSpace.tuple.injEq, List.cons.injEq, and_true, false_and, false_or, false_iff, not_and]
      rintro ⟨rfl, rfl⟩ h'
      exact h h'
    · rename_i h
      push Not at h
      simp only [Except.ok.injEq, Prod.mk.injEq, reduceCtorEq, ArgSpace.tuple.injEq, List.cons.injEq, and_true,
        false_and, false_or]
      constructor
      · rintro ⟨rfl, rfl⟩; exact ⟨⟨rfl, rfl⟩, h⟩
      · rintro ⟨⟨rfl, rfl⟩, _⟩; exact ⟨rfl, rfl⟩
  · rename_i l hl
    simp only [reduceCtorEq, ArgSpace.tuple.injEq, false_and, false_or, false_iff, not_and]
    rintro rfl
    exact absurd rfl (hl s1 s2)

/-- The column labels the model would attach are usable for vectors of length `w`. -/
def Composer.ColumnsFit (c : Composer κ) (w : ℕ) : Prop :=
  ∀ cols, c.columns = some cols → cols.Nodup ∧ (cols ≠ [] → cols.length = w)

/-- `t` is the description of the composed space: labels and vectors. -/
structure IsComposition (c : CModel) (s1 s2 : Space κ) (triples : List (Triple κ)) (w : ℕ) (r : Space κ) : Prop where
  wf : r.WF
  labels : r.id2row = triples.map (·.2.2)
  width : r.mat.nc = w
  vectors : ∀ (k : ℕ) (a b phrase : κ) (i1 i2 : ℕ), triples[k]? = some (a, b, phrase) → s1.HasWord i1 a →
    s2.HasWord i2 b → ∀ j < w,
      r.mat.val.get k j = c.vec s1.mat.nc s2.mat.nc (s1.mat.val.get i1) (s2.mat.val.get i2) j

/-! ## C38 -/

theorem composer_columns_fit {c : Composer κ} {s1 : Space κ} (h1 : s1.WF) {n2 w : ℕ}
    (hf : c.model.Fits s1.mat.nc n2 w) (hc : c.ColumnsFit w) :
    (c.columns.getD (c.model.buildColumns s1)).Nodup ∧
      (c.columns.getD (c.model.buildColumns s1) ≠ [] → w = (c.columns.getD (c.model.buildColumns s1)).length) := by
  cases hcol : c.columns with
  | some cols =>
    obtain ⟨a, b⟩ := hc cols hcol
    exact ⟨a, fun h => (b h).symm⟩
  | none =>
    simp only [Option.getD_none]
    obtain ⟨_, _, _, hf⟩ := hf
    have key : ∀ m : CModel, (m.buildColumns s1 = [] ∨ (m.buildColumns s1 = s1.id2col ∧
        (m.Fits s1.mat.nc n2 w → w = s1.mat.nc))) := by
      intro m
      cases m with
      | fullAdditive _ _ _ _ => exact Or.inl rfl
      | weighted _ _ => exact Or.inr ⟨rfl, fun h => h.2.2.2.2⟩
      | dilation _ => exact Or.inr ⟨rfl, fun h => h.2.2.2.2⟩
      | multiplicative => exact Or.inr ⟨rfl, fun h => h.2.2.2.2⟩
    rcases key c.model with h | ⟨h, hw⟩
    · rw [h]; simp
    · rw [h]
      refine ⟨h1.cols.nodup, fun hne => ?_⟩
      rw [hw ⟨‹_›, ‹_›, ‹_›, hf⟩]
      exact h1.ncols hne

/-- **C38** composing: the labels are the phrase strings of exactly the triples whose words are known, in input order,
and the row of each phrase is the model applied to the vectors of its own two words. -/
theorem C38_compose (c : Composer κ) (data : List (Triple κ)) (args : ArgSpace κ) (s1 s2 : Space κ) (w : ℕ)
    (hx : args.extract = .ok (s1, s2)) (h1 : s1.WF) (h2 : s2.WF) (hf : c.model.Fits s1.mat.nc s2.mat.nc w)
    (hc : c.ColumnsFit w) (hv : knownTriples s1 s2 data ≠ [])
    (hn : ((knownTriples s1 s2 data).map (·.2.2)).Nodup) :
    ∃ r, (c.compose data args).2 = .ok r ∧ IsComposition c.model s1 s2 (knownTriples s1 s2 data) w r := by
  obtain ⟨ty, A, B, a1, b1, a2, b2, ga, gb, he⟩ := composeData_inputs c.model data hx h1 h2 hf.1 hf.2.1 hv
  have hpos : 0 < A.nr := by rw [a1]; exact List.length_pos_iff.2 hv
  obtain ⟨M, hM, m1, m2, gM⟩ := compose2_ok c.model (ty := ty) (A := A) (B := B) (w := w) (a1.trans b1.symm) hpos
    (by rw [a2, b2]; exact hf)
  rw [hM] at he
  simp only [ok_bind] at he
  unfold Composer.compose
  rw [he]
  simp only
  obtain ⟨cn, cl⟩ := composer_columns_fit h1 hf hc
  obtain ⟨r, hr⟩ := Space.resolveMap_none hn
  obtain ⟨d, hd⟩ := Space.resolveMap_none cn
  have hnew := Space.new_ok (m := ⟨ty, M⟩) (ops := []) (sh := none) hr hd
    (by rw [List.length_map]; exact m1.trans a1) (fun h => m2.trans (cl h)) (by simp)
  obtain ⟨e1, e2, _, _, _, _, _, wf⟩ := Space.new_eq_ok hnew
  refine ⟨_, hnew, wf, e2, m2, ?_⟩
  intro k a b phrase i1 i2 hk hi1 hi2 j hj
  have hklt : k < A.nr := by
    rw [a1]
    by_contra hcn
    rw [List.getElem?_eq_none (by omega)] at hk
    cases hk
  have := gM k hklt j hj
  rw [a2, b2, ga k _ i1 hk hi1, gb k _ i2 hk hi2] at this
  exact this

/-- **C38** no known triple: `ValueError` (for an empty list see C39). -/
theorem C38_no_known_triple (c : Composer κ) (data : List (Triple κ)) (args : ArgSpace κ) (s1 s2 : Space κ)
    (hx : args.extract = .ok (s1, s2)) (h1 : s1.WF) (h2 : s2.WF) (hd : data ≠ [])
    (hv : knownTriples s1 s2 data = []) : c.compose data args = (c, .error .valueError) := by
  have : c.model.composeData data args = .error .valueError := by
    unfold CModel.composeData
    rw [hx]
    simp only [ok_bind]
    rw [validData_eq _ _ _ data [] (by rw [← hv, knownTriples_eq h1 h2]), if_neg hd, if_pos rfl]
    rfl
  unfold Composer.compose
  rw [this]

/-- **C38** two known triples with the same phrase string: `ValueError`. -/
theorem C38_duplicate_phrase (c : Composer κ) (data : List (Triple κ)) (args : ArgSpace κ) (s1 s2 : Space κ) (w : ℕ)
    (hx : args.extract = .ok (s1, s2)) (h1 : s1.WF) (h2 : s2.WF) (hf : c.model.Fits s1.mat.nc s2.mat.nc w)
    (hn : ¬ ((knownTriples s1 s2 data).map (·.2.2)).Nodup) :
    (c.compose data args).2 = .error .valueError := by
  have hv : knownTriples s1 s2 data ≠ [] := by
    intro h
    rw [h] at hn
    simp at hn
  obtain ⟨ty, A, B, a1, b1, a2, b2, ga, gb, he⟩ := composeData_inputs c.model data hx h1 h2 hf.1 hf.2.1 hv
  have hpos : 0 < A.nr := by rw [a1]; exact List.length_pos_iff.2 hv
  obtain ⟨M, hM, m1, m2, gM⟩ := compose2_ok c.model (ty := ty) (A := A) (B := B) (w := w) (a1.trans b1.symm) hpos
    (by rw [a2, b2]; exact hf)
  rw [hM] at he
  simp only [ok_bind] at he
  unfold Composer.compose
  rw [he]
  simp only
  unfold Space.new Space.resolveMap
  cases hl : list2dict ((knownTriples s1 s2 data).map (·.2.2)) with
  | ok d => exact absurd (list2dict_ok hl).1.nodup hn
  | error e =>
    rw [(list2dict_error hl).1]
    rfl

/-- **C38** spaces with different column labels, and tuples of another length than two, are refused. -/
theorem C38_bad_spaces (c : Composer κ) (data : List (Triple κ)) (l : List (Space κ))
    (h : l.length ≠ 2 ∨ ∃ s1 s2, l = [s1, s2] ∧ s1.id2col ≠ s2.id2col) :
    c.compose data (.tuple l) = (c, .error .valueError) := by
  have : (ArgSpace.tuple l).extract = .error .valueError := by
    rcases h with h | ⟨s1, s2, rfl, h⟩
    · unfold ArgSpace.extract
      split
      · rename_i heq; cases heq
      · rename_i heq; cases heq; simp at h
      · rfl
    · simp [ArgSpace.extract, h]
  unfold Composer.compose CModel.composeData
  rw [this]
  rfl

theorem composeData_space {c : CModel} {data : List (Triple κ)} {args : ArgSpace κ} {s1 s2 t : Space κ} {l : List κ}
    {m : TMat ℝ} (hx : args.extract = .ok (s1, s2)) (h : c.composeData data args = .ok (t, l, m)) : t = s1 := by
  unfold CModel.composeData at h
  rw [hx] at h
  simp only [ok_bind, bind_eq_ok] at h
  obtain ⟨⟨l1, l2, l3⟩, _, m1, _, m2, _, ms, _, h⟩ := h
  split at h
  · simp only [bind_eq_ok, pure_eq_ok] at h
    obtain ⟨m', _, h⟩ := h
    have := ok_inj h
    injection this with h1 h2
    exact h1.symm
  · cases h

/-- **C38** the column labels of the result: those of the first space (none for `FullAdditive`), or the ones the model
already carries. -/
theorem C38_columns (c : Composer κ) (data : List (Triple κ)) (args : ArgSpace κ) (s1 s2 r : Space κ)
    (hx : args.extract = .ok (s1, s2)) (h : (c.compose data args).2 = .ok r) :
    (∀ cols, c.columns = some cols → r.id2col = cols) ∧
    (c.columns = none → (∀ A B i l, c.model ≠ .fullAdditive A B i l) → r.id2col = s1.id2col) ∧
    (c.columns = none → (∃ A B i l, c.model = .fullAdditive A B i l) → r.id2col = []) := by
  unfold Composer.compose at h
  cases hd : c.model.composeData data args with
  | error e => rw [hd] at h; cases h
  | ok v =>
    obtain ⟨t, l, m⟩ := v
    rw [hd] at h
    obtain rfl := composeData_space hx hd
    simp only at h
    have hcol := (Space.new_eq_ok h).2.2.1
    refine ⟨fun cols hc => ?_, fun hc hm => ?_, fun hc hm => ?_⟩
    · rw [hcol, hc]; rfl
    · rw [hcol, hc, Option.getD_none]
      unfold CModel.buildColumns
      split
      · rename_i A B i l' heq
        exact absurd heq (hm _ _ _ _)
      · rfl
    · obtain ⟨A, B, i, l', hm⟩ := hm
      rw [hcol, hc, Option.getD_none, hm]
      rfl

/-! ## C39 -/

theorem trainable_iff {m : CModel} : m.trainable = true ↔ m ≠ .multiplicative := by
  cases m <;> simp [CModel.trainable]

/-- **C39** what holds: a non-empty list without a usable triple raises `ValueError` in `compose` and in `train`. The
full claim also covers the empty list, see `C39_refuted`. -/
theorem C39_partial (env : Env) (c : Composer κ) (data : List (Triple κ)) (args : ArgSpace κ) (s1 s2 p : Space κ)
    (hx : args.extract = .ok (s1, s2)) (h1 : s1.WF) (h2 : s2.WF) (hp : p.WF) (hd : data ≠ []) :
    (knownTriples s1 s2 data = [] → (c.compose data args).2 = .error .valueError) ∧
    (c.model ≠ .multiplicative → trainTriples s1 s2 p data = [] → c.train env data args p = .error .valueError) := by
  refine ⟨fun hv => ?_, fun hc hv => ?_⟩
  · rw [C38_no_known_triple c data args s1 s2 hx h1 h2 hd hv]
  · rw [Composer.train_shared (trainable_iff.2 hc)]
    unfold Composer.trainShared
    rw [hx]
    simp only [ok_bind]
    rw [validData_eq _ _ _ data [] (by rw [← hv, trainTriples_eq h1 h2 hp]), if_neg hd, if_pos rfl]
    rfl

/-- **C39** is false as stated: with an empty list `compose` and `train` raise `UnboundLocalError` for every model and
every accepted pair of spaces (`train`: for every model that can be trained). -/
theorem C39_refuted (env : Env) (c : Composer κ) (args : ArgSpace κ) (s1 s2 p : Space κ)
    (hx : args.extract = .ok (s1, s2)) :
    (c.compose [] args).2 = .error .unboundLocalError ∧ (c.model ≠ .multiplicative → c.train env [] args p = .error .unboundLocalError) := by
  refine ⟨?_, fun hc => ?_⟩
  · unfold Composer.compose CModel.composeData
    rw [hx]
    rfl
  · rw [Composer.train_shared (trainable_iff.2 hc)]
    unfold Composer.trainShared
    rw [hx]
    rfl

/-! ## C40 -/

/-- **C40** `WeightedAdditive` composes to `alpha*u + beta*v`, whatever the classes of the matrices. -/
theorem C40_weighted (a b : ℝ) (data : List (Triple κ)) (args : ArgSpace κ) (s1 s2 : Space κ)
    (hx : args.extract = .ok (s1, s2)) (h1 : s1.WF) (h2 : s2.WF) (hw : s1.mat.nc = s2.mat.nc) (hpos : 0 < s1.mat.nc)
    (hv : knownTriples s1 s2 data ≠ []) (hn : ((knownTriples s1 s2 data).map (·.2.2)).Nodup) :
    ∃ (c : Composer κ) (r : Space κ), newWeighted (.num a) (.num b) = .ok c ∧ (c.compose data args).2 = .ok r ∧
      r.id2row = (knownTriples s1 s2 data).map (·.2.2) ∧
      ∀ (k : ℕ) (x y ph : κ) (i1 i2 : ℕ), (knownTriples s1 s2 data)[k]? = some (x, y, ph) → s1.HasWord i1 x →
        s2.HasWord i2 y → ∀ j < s1.mat.nc,
          r.mat.val.get k j = a * s1.mat.val.get i1 j + b * s2.mat.val.get i2 j := by
  obtain ⟨r, hr, hc⟩ := C38_compose (⟨.weighted a b, none⟩ : Composer κ) data args s1 s2 s1.mat.nc hx h1 h2
    ⟨hpos, hw ▸ hpos, hpos, hw, rfl⟩ (by intro cols h; cases h) hv hn
  exact ⟨_, r, rfl, hr, hc.labels, fun k x y ph i1 i2 hk p q j hj => hc.vectors k x y ph i1 i2 hk p q j hj⟩

omit [DecidableEq κ] in
/-- **C40** the parameters set by the constructor: defaults one half each; with `alpha` alone `beta` is `1 - alpha`
(with `beta` alone `alpha` stays one half); anything that is not a number is a `TypeError`. -/
theorem C40_parameters (a b : ℝ) (x : NumArg) :
    (newWeighted .absent .absent : Py (Composer κ)) = .ok ⟨.weighted (1 / 2) (1 / 2), none⟩ ∧
    (newWeighted (.num a) .absent : Py (Composer κ)) = .ok ⟨.weighted a (1 - a), none⟩ ∧
    (newWeighted .absent (.num b) : Py (Composer κ)) = .ok ⟨.weighted (1 / 2) b, none⟩ ∧
    (newWeighted (.num a) (.num b) : Py (Composer κ)) = .ok ⟨.weighted a b, none⟩ ∧
    (newWeighted .other x : Py (Composer κ)) = .error .typeError ∧
    (newWeighted x .other : Py (Composer κ)) = .error .typeError := by
  refine ⟨rfl, rfl, rfl, rfl, rfl, ?_⟩
  cases x <;> rfl

/-! ## C41 -/

/-- **C41** `Dilation` composes to `(u·u)v + (lambda-1)(u·v)u`. -/
theorem C41_dilation (l : ℝ) (data : List (Triple κ)) (args : ArgSpace κ) (s1 s2 : Space κ)
    (hx : args.extract = .ok (s1, s2)) (h1 : s1.WF) (h2 : s2.WF) (hw : s1.mat.nc = s2.mat.nc) (hpos : 0 < s1.mat.nc)
    (hv : knownTriples s1 s2 data ≠ []) (hn : ((knownTriples s1 s2 data).map (·.2.2)).Nodup) :
    ∃ (c : Composer κ) (r : Space κ), newDilation (.num l) = .ok c ∧ (c.compose data args).2 = .ok r ∧
      r.id2row = (knownTriples s1 s2 data).map (·.2.2) ∧
      ∀ (k : ℕ) (x y ph : κ) (i1 i2 : ℕ), (knownTriples s1 s2 data)[k]? = some (x, y, ph) → s1.HasWord i1 x →
        s2.HasWord i2 y → ∀ j < s1.mat.nc,
          r.mat.val.get k j =
            (∑ q ∈ range s1.mat.nc, s1.mat.val.get i1 q * s1.mat.val.get i1 q) * s2.mat.val.get i2 j +
            (l - 1) * (∑ q ∈ range s1.mat.nc, s1.mat.val.get i1 q * s2.mat.val.get i2 q) * s1.mat.val.get i1 j := by
  obtain ⟨r, hr, hc⟩ := C38_compose (⟨.dilation l, none⟩ : Composer κ) data args s1 s2 s1.mat.nc hx h1 h2
    ⟨hpos, hw ▸ hpos, hpos, hw, rfl⟩ (by intro cols h; cases h) hv hn
  exact ⟨_, r, rfl, hr, hc.labels, fun k x y ph i1 i2 hk p q j hj => hc.vectors k x y ph i1 i2 hk p q j hj⟩

omit [DecidableEq κ] in
/-- **C41** the constructor: default 2; not a number: `ValueError`. -/
theorem C41_parameters (l : ℝ) :
    (newDilation .absent : Py (Composer κ)) = .ok ⟨.dilation 2, none⟩ ∧
    (newDilation (.num l) : Py (Composer κ)) = .ok ⟨.dilation l, none⟩ ∧
    (newDilation .other : Py (Composer κ)) = .error .valueError := ⟨rfl, rfl, rfl⟩

/-! ## C42 -/

/-- **C42** `Multiplicative` composes to the component-wise product. -/
theorem C42_multiplicative (data : List (Triple κ)) (args : ArgSpace κ) (s1 s2 : Space κ)
    (hx : args.extract = .ok (s1, s2)) (h1 : s1.WF) (h2 : s2.WF) (hw : s1.mat.nc = s2.mat.nc) (hpos : 0 < s1.mat.nc)
    (hv : knownTriples s1 s2 data ≠ []) (hn : ((knownTriples s1 s2 data).map (·.2.2)).Nodup) :
    ∃ r : Space κ, ((newMultiplicative : Composer κ).compose data args).2 = .ok r ∧
      r.id2row = (knownTriples s1 s2 data).map (·.2.2) ∧
      ∀ (k : ℕ) (x y ph : κ) (i1 i2 : ℕ), (knownTriples s1 s2 data)[k]? = some (x, y, ph) → s1.HasWord i1 x →
        s2.HasWord i2 y → ∀ j < s1.mat.nc, r.mat.val.get k j = s1.mat.val.get i1 j * s2.mat.val.get i2 j := by
  obtain ⟨r, hr, hc⟩ := C38_compose (newMultiplicative : Composer κ) data args s1 s2 s1.mat.nc hx h1 h2
    ⟨hpos, hw ▸ hpos, hpos, hw, rfl⟩ (by intro cols h; cases h) hv hn
  exact ⟨r, hr, hc.labels, fun k x y ph i1 i2 hk p q j hj => hc.vectors k x y ph i1 i2 hk p q j hj⟩

/-- **C42** a `Multiplicative` model cannot be trained: whatever the data and spaces, `TypeError`. -/
theorem C42_no_training (env : Env) (data : List (Triple κ)) (args : ArgSpace κ) (p : Space κ) (ids : Option (List κ)) :
    (⟨.multiplicative, ids⟩ : Composer κ).train env data args p = .error .typeError := rfl

/-- **C42** vectors of different lengths: `ValueError` (`Multiplicative`, `Dilation`). -/
theorem C42_width_mismatch (c : Composer κ) (hc : c.model = .multiplicative ∨ ∃ l, c.model = .dilation l)
    (data : List (Triple κ)) (args : ArgSpace κ) (s1 s2 : Space κ)
    (hx : args.extract = .ok (s1, s2)) (h1 : s1.WF) (h2 : s2.WF) (hw : s1.mat.nc ≠ s2.mat.nc) (hpos : 0 < s1.mat.nc)
    (hpos' : 0 < s2.mat.nc) (hv : knownTriples s1 s2 data ≠ []) :
    c.compose data args = (c, .error .valueError) := by
  obtain ⟨ty, A, B, a1, b1, a2, b2, ga, gb, he⟩ := composeData_inputs c.model data hx h1 h2 hpos hpos' hv
  have hm : (⟨ty, A⟩ : TMat ℝ).multiply ⟨ty, B⟩ = .error .valueError := by
    unfold TMat.multiply
    rw [if_pos rfl, if_neg]
    rintro ⟨_, h⟩
    exact hw (a2.symm.trans (h.trans b2))
  have : c.model.compose2 ⟨ty, A⟩ ⟨ty, B⟩ = .error .valueError := by
    rcases hc with hc | ⟨l, hc⟩
    · rw [hc]; exact hm
    · rw [hc]
      simp only [CModel.compose2, CModel.composeDilation, hm]
      rfl
  rw [this] at he
  unfold Composer.compose
  rw [he]
  rfl

/-! ## C43 -/

/-- **C43** `FullAdditive(A=A, B=B)` composes to `A u + B v`, for non-empty matrices of any fitting shapes and
classes. -/
theorem C43_given_matrices (A B : TMat ℝ) (data : List (Triple κ)) (args : ArgSpace κ) (s1 s2 : Space κ)
    (hx : args.extract = .ok (s1, s2)) (h1 : s1.WF) (h2 : s2.WF) (p1 : 0 < s1.mat.nc) (p2 : 0 < s2.mat.nc)
    (hA : A.nc = s1.mat.nc) (hB : B.nc = s2.mat.nc) (hAB : A.nr = B.nr) (hA0 : 0 < A.nr)
    (hv : knownTriples s1 s2 data ≠ []) (hn : ((knownTriples s1 s2 data).map (·.2.2)).Nodup) :
    ∃ (c : Composer κ) (r : Space κ), newFullAdditive A B = .ok c ∧ (c.compose data args).2 = .ok r ∧
      r.id2row = (knownTriples s1 s2 data).map (·.2.2) ∧ r.id2col = [] ∧ r.mat.nc = A.nr ∧
      ∀ (k : ℕ) (x y ph : κ) (i1 i2 : ℕ), (knownTriples s1 s2 data)[k]? = some (x, y, ph) → s1.HasWord i1 x →
        s2.HasWord i2 y → ∀ j < A.nr,
          r.mat.val.get k j = (∑ q ∈ range A.nc, A.val.get j q * s1.mat.val.get i1 q) +
            ∑ q ∈ range B.nc, B.val.get j q * s2.mat.val.get i2 q := by
  have hc : (newFullAdditive A B : Py (Composer κ)) =
      .ok ⟨.fullAdditive (some ⟨A.ty, A.val.transpose⟩) (some ⟨A.ty, B.val.transpose⟩) false none, none⟩ := by
    unfold newFullAdditive TMat.toCompatible
    rw [TMat.toType_ok A.ty (t := B) (fun _ => ⟨by omega, by omega⟩)]
    simp only [ok_bind]
    rw [TMat.transpose_ok hA0 (by omega)]
    simp only [ok_bind]
    rw [TMat.transpose_ok (s := ⟨A.ty, B.val⟩) (show 0 < B.nr by omega) (show 0 < B.nc by omega)]
    rfl
  obtain ⟨r, hr, hcc⟩ := C38_compose
    (⟨.fullAdditive (some ⟨A.ty, A.val.transpose⟩) (some ⟨A.ty, B.val.transpose⟩) false none, none⟩ : Composer κ)
    data args s1 s2 A.nr hx h1 h2 ⟨p1, p2, hA0, hA, hB, rfl, hAB.symm⟩ (by intro cols h; cases h) hv hn
  refine ⟨_, r, hc, hr, hcc.labels, ?_, hcc.width, ?_⟩
  · exact (C38_columns _ data args s1 s2 r hx hr).2.2 rfl ⟨_, _, _, _, rfl⟩
  · intro k x y ph i1 i2 hk q1 q2 j hj
    rw [hcc.vectors k x y ph i1 i2 hk q1 q2 j hj, hA, hB]
    simp [CModel.vec, affineVec, dot]

/-- **C43** with an intercept (after training): `A u + B v + c`, where `[A | B | c]` is the learned matrix, transposed
and split. -/
theorem C43_intercept (X Y : TMat ℝ) (l : Option Learner) (cols : List κ) (data : List (Triple κ))
    (args : ArgSpace κ) (s1 s2 : Space κ)
    (hx : args.extract = .ok (s1, s2)) (h1 : s1.WF) (h2 : s2.WF) (p1 : 0 < s1.mat.nc) (p2 : 0 < s2.mat.nc)
    (hX : X.nr = s1.mat.nc) (hY : Y.nr = s2.mat.nc + 1) (hXY : X.nc = Y.nc) (hX0 : 0 < X.nc)
    (hcols : cols.Nodup ∧ (cols ≠ [] → cols.length = X.nc))
    (hv : knownTriples s1 s2 data ≠ []) (hn : ((knownTriples s1 s2 data).map (·.2.2)).Nodup) :
    ∃ r : Space κ,
      ((⟨.fullAdditive (some X) (some Y) true l, some cols⟩ : Composer κ).compose data args).2 = .ok r ∧
      r.id2row = (knownTriples s1 s2 data).map (·.2.2) ∧ r.id2col = cols ∧
      ∀ (k : ℕ) (x y ph : κ) (i1 i2 : ℕ), (knownTriples s1 s2 data)[k]? = some (x, y, ph) → s1.HasWord i1 x →
        s2.HasWord i2 y → ∀ j < X.nc,
          r.mat.val.get k j = (∑ q ∈ range s1.mat.nc, X.val.get q j * s1.mat.val.get i1 q) +
            (∑ q ∈ range s2.mat.nc, Y.val.get q j * s2.mat.val.get i2 q) + Y.val.get s2.mat.nc j := by
  obtain ⟨r, hr, hcc⟩ := C38_compose (⟨.fullAdditive (some X) (some Y) true l, some cols⟩ : Composer κ)
    data args s1 s2 X.nc hx h1 h2 ⟨p1, p2, hX0, hX, hY, rfl, hXY.symm⟩ (by intro cols' h; cases h; exact hcols) hv hn
  refine ⟨r, hr, hcc.labels, ?_, ?_⟩
  · exact (C38_columns _ data args s1 s2 r hx hr).1 cols rfl
  · intro k x y ph i1 i2 hk q1 q2 j hj
    rw [hcc.vectors k x y ph i1 i2 hk q1 q2 j hj]
    simp [CModel.vec, affineVec, dot]

/-- **C43** composing with a `FullAdditive` that has not been trained yet (it has a learner, no matrices) raises `TypeError`,
and leaves the object as it was. -/
theorem C43_untrained (l : Learner) (data : List (Triple κ)) (args : ArgSpace κ) (s1 s2 : Space κ)
    (hx : args.extract = .ok (s1, s2)) (h1 : s1.WF) (h2 : s2.WF) (p1 : 0 < s1.mat.nc) (p2 : 0 < s2.mat.nc)
    (hv : knownTriples s1 s2 data ≠ []) :
    (newFullAdditiveLearner l : Composer κ).compose data args = (newFullAdditiveLearner l, .error .typeError) := by
  obtain ⟨ty, A, B, a1, b1, a2, b2, ga, gb, he⟩ :=
    composeData_inputs (newFullAdditiveLearner l : Composer κ).model data hx h1 h2 p1 p2 hv
  have : (newFullAdditiveLearner l : Composer κ).model.compose2 ⟨ty, A⟩ ⟨ty, B⟩ = .error .typeError := rfl
  rw [this] at he
  unfold Composer.compose
  rw [he]
  rfl

/-! ## C50 -/

/-- The model object after a history of `compose` calls (successful or not). -/
def Composer.history (c : Composer κ) (h : List (List (Triple κ) × ArgSpace κ)) : Composer κ :=
  h.foldl (fun c x => (c.compose x.1 x.2).1) c

theorem compose_state (c : Composer κ) (data : List (Triple κ)) (args : ArgSpace κ) :
    (c.compose data args).1 = c ∨ ∃ s1 s2, args.extract = .ok (s1, s2) ∧
      (c.compose data args).1 = ⟨c.model, some (c.columns.getD (c.model.buildColumns s1))⟩ := by
  unfold Composer.compose
  cases hd : c.model.composeData data args with
  | error e => exact Or.inl rfl
  | ok v =>
    obtain ⟨t, l, m⟩ := v
    right
    cases hx : args.extract with
    | error e =>
      unfold CModel.composeData at hd
      rw [hx] at hd
      cases hd
    | ok p =>
      obtain ⟨s1, s2⟩ := p
      obtain rfl := composeData_space hx hd
      exact ⟨t, s2, rfl, rfl⟩

theorem history_state (c : Composer κ) (h : List (List (Triple κ) × ArgSpace κ)) (L : List κ)
    (hL : ∀ x ∈ h, ∀ s1 s2, x.2.extract = .ok (s1, s2) → c.columns.getD (c.model.buildColumns s1) = L) :
    c.history h = c ∨ c.history h = ⟨c.model, some L⟩ := by
  unfold Composer.history
  suffices H : ∀ (h : List (List (Triple κ) × ArgSpace κ)) (c' : Composer κ),
      (∀ x ∈ h, ∀ s1 s2, x.2.extract = .ok (s1, s2) → c.columns.getD (c.model.buildColumns s1) = L) →
      (c' = c ∨ c' = ⟨c.model, some L⟩) →
      (h.foldl (fun c x => (c.compose x.1 x.2).1) c' = c ∨
        h.foldl (fun c x => (c.compose x.1 x.2).1) c' = ⟨c.model, some L⟩) from H h c hL (Or.inl rfl)
  intro h
  induction h with
  | nil => intro c' _ hc; exact hc
  | cons x xs ih =>
    intro c' hx hc
    refine ih _ (fun y hy => hx y (List.mem_cons_of_mem _ hy)) ?_
    beta_reduce
    rcases compose_state c' x.1 x.2 with h1 | ⟨s1, s2, he, h1⟩
    · rw [h1]; exact hc
    · rw [h1]
      right
      rcases hc with rfl | rfl
      · rw [hx x List.mem_cons_self s1 s2 he]
      · rfl

/-- **C50** what holds: the result of `compose` does not depend on earlier `compose` calls when the model carries
column labels already (it was trained), or is a `FullAdditive`, or all spaces it ever composed with have the column
labels of the present ones. Missing: histories with different column labels, see `C50_refuted`. -/
theorem C50_partial (c : Composer κ) (h : List (List (Triple κ) × ArgSpace κ)) (data : List (Triple κ))
    (args : ArgSpace κ)
    (hyp : (∃ cols, c.columns = some cols) ∨ (∃ A B i l, c.model = .fullAdditive A B i l) ∨
      ∃ L, ∀ a, (a = args ∨ ∃ d, (d, a) ∈ h) → ∀ s1 s2, a.extract = .ok (s1, s2) → s1.id2col = L) :
    ((c.history h).compose data args).2 = (c.compose data args).2 := by
  have key : ∃ L, ∀ a, (a = args ∨ ∃ d, (d, a) ∈ h) → ∀ s1 s2, a.extract = .ok (s1, s2) →
      c.columns.getD (c.model.buildColumns s1) = L := by
    rcases hyp with ⟨cols, hc⟩ | ⟨A, B, i, l, hm⟩ | ⟨L, hL⟩
    · exact ⟨cols, fun _ _ _ _ _ => by rw [hc]; rfl⟩
    · refine ⟨c.columns.getD [], fun _ _ _ _ _ => ?_⟩
      rw [hm]; rfl
    · refine ⟨c.columns.getD (match c.model with | .fullAdditive _ _ _ _ => [] | _ => L), fun a ha s1 s2 he => ?_⟩
      congr 1
      unfold CModel.buildColumns
      cases c.model with
      | fullAdditive _ _ _ _ => rfl
      | weighted _ _ => exact hL a ha s1 s2 he
      | dilation _ => exact hL a ha s1 s2 he
      | multiplicative => exact hL a ha s1 s2 he
  obtain ⟨L, hL⟩ := key
  rcases history_state c h L (fun x hx s1 s2 he => hL x.2 (Or.inr ⟨x.1, hx⟩) s1 s2 he) with e | e
  · rw [e]
  · rw [e]
    unfold Composer.compose
    simp only
    cases hd : c.model.composeData data args with
    | error er => rfl
    | ok v =>
      obtain ⟨t, l, m⟩ := v
      simp only [Option.getD_some]
      cases hx : args.extract with
      | error er =>
        unfold CModel.composeData at hd
        rw [hx] at hd
        cases hd
      | ok p =>
        obtain ⟨s1, s2⟩ := p
        obtain rfl := composeData_space hx hd
        rw [hL args (Or.inl rfl) t s2 hx]

/-- **C50** is false as stated: a model that is not `FullAdditive` and has composed once with a space `s` labels the
columns of everything it composes later with the column labels of `s`, where a fresh model of the same parameters uses
the labels of the space it is given. -/
theorem C50_refuted (c : Composer κ) (hc : c.columns = none) (hm : ∀ A B i l, c.model ≠ .fullAdditive A B i l)
    (d1 d2 : List (Triple κ)) (s t r0 r1 r2 : Space κ) (hne : s.id2col ≠ t.id2col)
    (h0 : (c.compose d1 (.one s)).2 = .ok r0) (h1 : (c.compose d2 (.one t)).2 = .ok r1)
    (h2 : ((c.history [(d1, .one s)]).compose d2 (.one t)).2 = .ok r2) :
    r2.id2col = s.id2col ∧ r1.id2col = t.id2col ∧ r1 ≠ r2 := by
  have e1 := (C38_columns c d2 (.one t) t t r1 ((extract_iff _ _ _).2 (Or.inl ⟨rfl, rfl⟩)) h1).2.1 hc hm
  have ex := (extract_iff (.one s) s s).2 (Or.inl ⟨rfl, rfl⟩)
  have hst : (c.compose d1 (.one s)).1.columns = some s.id2col := by
    unfold Composer.compose at h0 ⊢
    cases hd : c.model.composeData d1 (.one s) with
    | error e => rw [hd] at h0; cases h0
    | ok v =>
      obtain ⟨t', l, m⟩ := v
      obtain rfl := composeData_space ex hd
      simp only [hc, Option.getD_none]
      unfold CModel.buildColumns
      split
      · rename_i heq; exact absurd heq (hm _ _ _ _)
      · rfl
  have e2 := (C38_columns (c.history [(d1, .one s)]) d2 (.one t) t t r2
    ((extract_iff _ _ _).2 (Or.inl ⟨rfl, rfl⟩)) h2).1 s.id2col hst
  refine ⟨e2, e1, ?_⟩
  rintro rfl
  exact hne (e2.symm.trans e1)

/-! ## Concrete cases -/

/-- A space with two words and two columns. -/
def exArg (ty : MTy) (cols : List String) : Py (Space String) :=
  Space.new ⟨ty, Mat.of 2 2 (fun i j => (2 * i + j + 1 : ℝ))⟩ ["red", "car"] cols none none [] none

theorem exArg_ok (ty : MTy) (cols : List String) (hn : cols.Nodup) (hl : cols.length = 2) :
    ∃ s, exArg ty cols = .ok s ∧ s.WF ∧ s.mat.nc = 2 ∧ s.id2row = ["red", "car"] ∧ s.id2col = cols := by
  obtain ⟨r, hr⟩ := Space.resolveMap_none (l := ["red", "car"]) (by decide)
  obtain ⟨d, hd⟩ := Space.resolveMap_none hn
  have hnew := Space.new_ok (m := ⟨ty, Mat.of 2 2 (fun i j => (2 * i + j + 1 : ℝ))⟩) (ops := []) (sh := none) hr hd
    rfl (fun _ => hl.symm) (by simp)
  obtain ⟨e1, e2, e3, _, _, _, _, wf⟩ := Space.new_eq_ok hnew
  exact ⟨_, hnew, wf, rfl, e2, e3⟩

/-- data with one unknown word: one triple is known -/
def exData : List (Triple String) := [("red", "horse", "red_horse"), ("red", "car", "red_car")]

theorem exData_known {s1 s2 : Space String} (h1 : s1.id2row = ["red", "car"]) (h2 : s2.id2row = ["red", "car"]) :
    knownTriples s1 s2 exData = [("red", "car", "red_car")] := by
  unfold knownTriples exData
  rw [h1, h2]
  rfl

/-- non-vacuity of C38, C40-C42 (the hypotheses are met, dense and sparse spaces mixed) and of C39. -/
example : ∃ s1 s2 : Space String, (ArgSpace.tuple [s1, s2]).extract = .ok (s1, s2) ∧ s1.WF ∧ s2.WF ∧
    s1.mat.nc = s2.mat.nc ∧ 0 < s1.mat.nc ∧ knownTriples s1 s2 exData ≠ [] ∧
    ((knownTriples s1 s2 exData).map (·.2.2)).Nodup ∧ (CModel.dilation 2).Fits s1.mat.nc s2.mat.nc 2 := by
  obtain ⟨s1, _, w1, n1, r1, c1⟩ := exArg_ok .dense ["f1", "f2"] (by decide) rfl
  obtain ⟨s2, _, w2, n2, r2, c2⟩ := exArg_ok .sparse ["f1", "f2"] (by decide) rfl
  refine ⟨s1, s2, (extract_iff _ _ _).2 (Or.inr ⟨rfl, c1.trans c2.symm⟩), w1, w2, n1.trans n2.symm, by omega, ?_, ?_,
    ⟨by omega, by omega, by omega, n1.trans n2.symm, n1.symm⟩⟩
  · rw [exData_known r1 r2]; simp
  · rw [exData_known r1 r2]; simp

/-- non-vacuity of C50_refuted: the three calls succeed for two concrete spaces. -/
example : ∃ (s t r0 r1 r2 : Space String), s.id2col ≠ t.id2col ∧
    ((newMultiplicative : Composer String).compose exData (.one s)).2 = .ok r0 ∧
    ((newMultiplicative : Composer String).compose exData (.one t)).2 = .ok r1 ∧
    (((newMultiplicative : Composer String).history [(exData, .one s)]).compose exData (.one t)).2 = .ok r2 := by
  obtain ⟨s, _, w1, n1, q1, c1⟩ := exArg_ok .dense ["f1", "f2"] (by decide) rfl
  obtain ⟨t, _, w2, n2, q2, c2⟩ := exArg_ok .sparse ["g1", "g2"] (by decide) rfl
  have xs := (extract_iff (.one s) s s).2 (Or.inl ⟨rfl, rfl⟩)
  have xt := (extract_iff (.one t) t t).2 (Or.inl ⟨rfl, rfl⟩)
  obtain ⟨r0, h0, _⟩ := C38_compose (newMultiplicative : Composer String) exData (.one s) s s 2 xs w1 w1
    ⟨by omega, by omega, by omega, rfl, n1.symm⟩ (by intro _ h; cases h) (by rw [exData_known q1 q1]; simp)
    (by rw [exData_known q1 q1]; simp)
  obtain ⟨r1, h1, _⟩ := C38_compose (newMultiplicative : Composer String) exData (.one t) t t 2 xt w2 w2
    ⟨by omega, by omega, by omega, rfl, n2.symm⟩ (by intro _ h; cases h) (by rw [exData_known q2 q2]; simp)
    (by rw [exData_known q2 q2]; simp)
  obtain ⟨r2, h2, _⟩ := C38_compose ((newMultiplicative : Composer String).history [(exData, .one s)]) exData (.one t)
    t t 2 xt w2 w2 (by
      rcases compose_state (newMultiplicative : Composer String) exData (.one s) with h | ⟨_, _, _, h⟩
      · simp only [Composer.history, List.foldl_cons, List.foldl_nil, h]
        exact ⟨by omega, by omega, by omega, rfl, n2.symm⟩
      · simp only [Composer.history, List.foldl_cons, List.foldl_nil, h]
        exact ⟨by omega, by omega, by omega, rfl, n2.symm⟩)
    (by
      intro cols hcols
      rcases compose_state (newMultiplicative : Composer String) exData (.one s) with h | ⟨a, b, hx, h⟩
      · simp only [Composer.history, List.foldl_cons, List.foldl_nil, h] at hcols
        cases hcols
      · simp only [Composer.history, List.foldl_cons, List.foldl_nil, h] at hcols
        rw [xs] at hx
        have hx := ok_inj hx
        injection hx with hx _
        subst hx
        obtain rfl := (Option.some.inj hcols).symm
        change s.id2col.Nodup ∧ (s.id2col ≠ [] → s.id2col.length = 2)
        rw [c1]
        decide)
    (by rw [exData_known q2 q2]; simp) (by rw [exData_known q2 q2]; simp)
  exact ⟨s, t, r0, r1, r2, by rw [c1, c2]; decide, h0, h1, h2⟩

end
end Dissect
