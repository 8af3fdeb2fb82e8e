import Verif.Lemmas.Heap

/-! # The transformations on the matrix heap compute what the value model says -/

namespace Dissect
noncomputable section
open Heap
namespace HM

/-- A new object in the result is a new object relative to any earlier heap. -/
theorem Does.new_base {h0 h : Heap} {p : HM ℕ} {v : Py (TMat ℝ)} (he : Ext h0 h)
    (hp : Does h0 h p v (fun h' k r => Ext h h' ∧ New h h' k r)) :
    Does h0 h p v (fun h' k r => New h0 h' k r) :=
  hp.weaken (fun _ _ _ _ _ _ hn => hn.2.base he)

theorem Does.epmi {h : Heap} (hw : h.WF) {i : ℕ} {m : TMat ℝ} (hv : h.matrix i = some m) (mg : Option (Arr ℝ)) :
    Does h h (HM.epmi i mg) (Dissect.epmi m mg) (fun h' k r => New h h' k r) := by
  unfold HM.epmi Dissect.epmi
  refine Does.read hv ?_
  refine Does.bind (Does.lift hw (Ext.refl h) _) (fun h1 _ _ _ _ _ hR => ?_)
  obtain ⟨rfl, _⟩ := hR
  refine Does.bind (Does.call1 hw (Ext.refl _) hv _) (fun h2 j r hr hw2 he2 hR => ?_)
  exact Does.new_base he2 (Does.call1 hw2 he2 hR.2.mat _)

theorem Does.plogIn {h0 h : Heap} (hw : h.WF) (he : Ext h0 h) {k : ℕ} {t : TMat ℝ} (hn : New h0 h k t) :
    Does h0 h (do HM.plogIn k; Pure.pure k) (.ok t.plog) (fun h' k' r => New h0 h' k' r) := by
  have := Does.bind (Does.inPlace hw he hn .plog) (f := fun _ => Pure.pure k) (g := fun r => .ok r)
    (S := fun h' k' r => New h0 h' k' r) (fun h' a b _ hw' he' hR => Does.pure hw' he' hR)
  exact this

theorem Does.ppmi {h : Heap} (hw : h.WF) {i : ℕ} {m : TMat ℝ} (hv : h.matrix i = some m) (mg : Option (Arr ℝ)) :
    Does h h (HM.ppmi i mg) (Dissect.ppmi m mg) (fun h' k r => New h h' k r) := by
  unfold HM.ppmi Dissect.ppmi
  exact Does.bind (Does.epmi hw hv mg) (fun h1 j r _ hw1 he1 hR => Does.plogIn hw1 he1 hR)

theorem Does.plmi {h : Heap} (hw : h.WF) {i : ℕ} {m : TMat ℝ} (hv : h.matrix i = some m) (mg : Option (Arr ℝ)) :
    Does h h (HM.plmi i mg) (Dissect.plmi m mg) (fun h' k r => New h h' k r) := by
  unfold HM.plmi Dissect.plmi
  exact Does.bind (Does.ppmi hw hv mg) (fun h1 j r _ hw1 he1 hR =>
    Does.new_base he1 (Does.call2 hw1 he1 (he1.matrix hv) hR.mat .multiply))

theorem Does.plogWeighting {h : Heap} (hw : h.WF) {i : ℕ} {m : TMat ℝ} (hv : h.matrix i = some m) :
    Does h h (HM.plogWeighting i) (Dissect.plogWeighting m) (fun h' k r => New h h' k r) := by
  unfold HM.plogWeighting Dissect.plogWeighting
  exact Does.bind (Does.call1 hw (Ext.refl h) hv .copy) (fun h1 j r _ hw1 he1 hR => Does.plogIn hw1 he1 hR.2)

theorem Does.rowNormalization {h : Heap} (hw : h.WF) {i : ℕ} {m : TMat ℝ} (hv : h.matrix i = some m) (c : Crit) :
    Does h h (HM.rowNormalization c i) (Dissect.rowNormalization c m) (fun h' k r => New h h' k r) := by
  unfold HM.rowNormalization Dissect.rowNormalization
  exact Does.read hv (Does.new_base (Ext.refl h) (Does.call1 hw (Ext.refl h) hv (.scaleRows _)))

/-- `Normalization` returns its argument when the total is 0, and a new matrix otherwise. -/
theorem Does.normalization {h : Heap} (hw : h.WF) {i : ℕ} {m : TMat ℝ} (hv : h.matrix i = some m) (c : Crit)
    (total : Option ℝ) :
    Does h h (HM.normalization c i total) (Dissect.normalization c m total)
      (fun h' k r => h'.matrix k = some r ∧ ((total.getD (normTotal c m) = 0 ∧ k = i ∧ h' = h) ∨
        (total.getD (normTotal c m) ≠ 0 ∧ New h h' k r))) := by
  unfold HM.normalization Dissect.normalization
  refine Does.read hv ?_
  by_cases h0 : total.getD (normTotal c m) = 0
  · simp only [h0, if_true]
    exact Does.pure hw (Ext.refl h) ⟨hv, Or.inl ⟨trivial, rfl, rfl⟩⟩
  · simp only [h0, if_false]
    exact (Does.call1 hw (Ext.refl h) hv (.times _)).weaken
      (fun h' k r _ _ _ hR => ⟨hR.2.mat, Or.inr ⟨by simpa using h0, hR.2⟩⟩)

/-- The scalings that may return their own argument: `Normalization` with total 0. -/
def _root_.Dissect.ScalingT.returnsArg (t : ScalingT) (m : TMat ℝ) (st : Option Stats) : Prop :=
  match t, st with
  | .norm c, none => normTotal c m = 0
  | .norm _, some (.num x) => x = 0
  | _, _ => False

theorem Does.scaling {h : Heap} (hw : h.WF) {i : ℕ} {m : TMat ℝ} (hv : h.matrix i = some m) (t : ScalingT)
    (st : Option Stats) :
    Does h h (HM.scaling t i st) (t.apply m st)
      (fun h' k r => h'.matrix k = some r ∧ ((t.returnsArg m st ∧ k = i ∧ h' = h) ∨
        (¬ t.returnsArg m st ∧ New h h' k r))) := by
  have hte : Does h h (HM.lift (.error .typeError) : HM ℕ) (.error .typeError : Py (TMat ℝ))
      (fun h' k r => h'.matrix k = some r ∧ ((t.returnsArg m st ∧ k = i ∧ h' = h) ∨
        (¬ t.returnsArg m st ∧ New h h' k r))) := ⟨h, rfl, hw, Ext.refl h⟩
  have hnew : ∀ {p : HM ℕ} {v : Py (TMat ℝ)}, ¬ t.returnsArg m st → Does h h p v (fun h' k r => New h h' k r) →
      Does h h p v (fun h' k r => h'.matrix k = some r ∧ ((t.returnsArg m st ∧ k = i ∧ h' = h) ∨
        (¬ t.returnsArg m st ∧ New h h' k r))) := fun hr hp =>
    hp.weaken (fun _ _ _ _ _ _ hn => ⟨hn.mat, Or.inr ⟨hr, hn⟩⟩)
  cases t with
  | epmi =>
    cases st with
    | none => exact hnew id (Does.epmi hw hv none)
    | some s => cases s with
      | cols a => exact hnew id (Does.epmi hw hv (some a))
      | num x => exact hte
  | ppmi =>
    cases st with
    | none => exact hnew id (Does.ppmi hw hv none)
    | some s => cases s with
      | cols a => exact hnew id (Does.ppmi hw hv (some a))
      | num x => exact hte
  | plmi =>
    cases st with
    | none => exact hnew id (Does.plmi hw hv none)
    | some s => cases s with
      | cols a => exact hnew id (Does.plmi hw hv (some a))
      | num x => exact hte
  | plog =>
    cases st with
    | none => exact hnew id (Does.plogWeighting hw hv)
    | some s => cases s <;> exact hte
  | rowNorm c =>
    cases st with
    | none => exact hnew id (Does.rowNormalization hw hv c)
    | some s => cases s <;> exact hte
  | norm c =>
    cases st with
    | none => exact Does.normalization hw hv c none
    | some s => cases s with
      | cols a => exact hte
      | num x => exact Does.normalization hw hv c (some x)

theorem Does.select {h : Heap} (hw : h.WF) {i : ℕ} {m : TMat ℝ} (hv : h.matrix i = some m) (k : ℕ) (c : Crit) :
    Does h h (HM.select k c i) (topFeatureSelection k c m) (fun h' j r => New h h' j r.1) := by
  have : topFeatureSelection k c m = (m.getCols ((sortedPermutation (match c with | .sum => m.sum0 | .length => m.norm0)).take
      (min k m.nc)) >>= fun r => .ok (r, (sortedPermutation (match c with | .sum => m.sum0 | .length => m.norm0)).take
      (min k m.nc))) := rfl
  rw [this]
  unfold HM.select
  refine Does.read hv ?_
  have h1 := Does.bind (Does.call1 hw (Ext.refl h) hv
    (.cols ((sortedPermutation (match c with | .sum => m.sum0 | .length => m.norm0)).take (min k m.nc))))
    (f := fun j => Pure.pure j)
    (g := fun r => .ok (r, (sortedPermutation (match c with | .sum => m.sum0 | .length => m.norm0)).take (min k m.nc)))
    (S := fun h' j r => New h h' j r.1) (fun h' j r _ hw' he' hR => Does.pure hw' he' hR.2)
  have h2 : ∀ p : HM ℕ, (p >>= fun j => Pure.pure j) = p := by
    intro p
    funext h
    show HM.andThen p (fun j => Pure.pure j) h = p h
    unfold HM.andThen
    rcases p h with ⟨h', _ | _⟩ <;> rfl
  rw [h2] at h1
  exact h1

/-- `DenseMatrix(x)`, `SparseMatrix(x)`: the converted value; the array is shared when the class is the same. -/
theorem Does.wrap {h0 h : Heap} (hw : h.WF) (he : Ext h0 h) {i : ℕ} {t : TMat ℝ} (hv : h.matrix i = some t)
    (ty : MTy) :
    Does h0 h (HM.wrap ty i) (t.toType ty) (fun h' k r => Ext h h' ∧ h'.matrix k = some r ∧ k = h.objs.length ∧
      ∃ o o', h.objs[i]? = some o ∧ h'.objs[k]? = some o' ∧ (o'.buf = o.buf ∨ h.bufs.length ≤ o'.buf)) := by
  obtain ⟨o, b, ho, hr, hb, ht⟩ := matrix_some hv
  have hvw := matrix_view hv
  have hty : t.ty = o.ty := by rw [ht]
  unfold HM.wrap
  by_cases hs : o.ty = ty
  · have hval : t.toType ty = .ok t := by
      subst hs
      unfold TMat.toType TMat.toDense TMat.toSparse
      rw [← hty]
      cases t with
      | mk a b => cases a <;> rfl
    rw [hval]
    refine ⟨h.pushShared o, h.objs.length, ?_, pushShared_wf hw (List.mem_of_getElem? ho),
      he.trans (pushShared_ext h o), pushShared_ext h o, ?_, rfl, o, { o with raw := false }, ho, ?_, Or.inl rfl⟩
    · simp only [ho, hvw]
      simp [hr, hs]
    · rw [matrix_of (h := h.pushShared o) (o := { o with raw := false }) (b := b) (by simp [pushShared]) rfl hb, ht]
    · simp [pushShared]
  · unfold Does
    simp only
    cases hx : t.toType ty with
    | error e => exact ⟨h, by simp only [ho, hvw]; simp [hr, hs, hx], hw, he⟩
    | ok t' =>
      have hn := push_new h t'
      obtain ⟨o', ho', hb'⟩ := hn.obj
      exact ⟨h.push false t', h.objs.length, by simp only [ho, hvw]; simp [hr, hs, hx], push_wf hw _ _,
        he.trans (push_ext h _ _), push_ext h _ _, hn.mat, rfl, o, o', ho, ho', Or.inr hb'⟩

/-- Wrapping an object with a new buffer gives an object with a new buffer. -/
theorem Does.wrapNew {h0 h : Heap} (hw : h.WF) (he : Ext h0 h) {i : ℕ} {t : TMat ℝ} (hn : New h0 h i t) (ty : MTy) :
    Does h0 h (HM.wrap ty i) (t.toType ty) (fun h' k r => Ext h h' ∧ New h0 h' k r) := by
  refine (Does.wrap hw he hn.mat ty).weaken (fun h' k r _ _ he' hR => ?_)
  obtain ⟨he2, hm, hk, o, o', ho, ho', hb⟩ := hR
  obtain ⟨o1, ho1, hb1⟩ := hn.obj
  rw [ho] at ho1
  obtain rfl := Option.some.inj ho1
  refine ⟨he2, hm, ⟨o', ho', ?_⟩, ?_⟩
  · rcases hb with hb | hb
    · rw [hb]; exact hb1
    · exact he.bufs_lt.trans hb
  · rw [hk]; exact he.objs_lt

theorem Does.reduce (env : Env) {h : Heap} (hw : h.WF) {i : ℕ} {m : TMat ℝ} (hv : h.matrix i = some m) (t : DimRedT) :
    Does h h (HM.reduce env t i) (t.apply env m >>= fun p => p.1.toDense >>= fun d => .ok (d, p.2))
      (fun h' k r => New h h' k.1 r.1 ∧ New h h' k.2 r.2 ∧
        ∃ o o', h'.objs[k.1]? = some o ∧ h'.objs[k.2]? = some o' ∧ o.buf ≠ o'.buf) := by
  unfold HM.reduce
  refine Does.read hv ?_
  refine Does.bind (Does.lift hw (Ext.refl h) _) (fun h1 p q _ _ _ hR => ?_)
  obtain ⟨rfl, rfl⟩ := hR
  have e1 : (p.1.toDense >>= fun d => (.ok (d, p.2) : Py (TMat ℝ × TMat ℝ))) =
      ((.ok p.1 : Py (TMat ℝ)) >>= fun x => (.ok p.2 : Py (TMat ℝ)) >>= fun y => x.toType .dense >>= fun d =>
        .ok (d, y)) := rfl
  rw [e1]
  refine Does.bind (Does.alloc hw (Ext.refl _) _) (fun h2 r x hx hw2 he2 hR => ?_)
  refine Does.bind (Does.alloc hw2 he2 _) (fun h3 tm y hy hw3 he3 hR3 => ?_)
  have hrn : New h1 h3 r x := hR.2.mono hR3.1
  refine Does.bind (Does.wrap hw3 he3 hrn.mat .dense) (fun h4 d z hz hw4 he4 hR4 => ?_)
  obtain ⟨he34, hm, hk, o, o', ho, ho', hb⟩ := hR4
  obtain ⟨or, hor, hbr⟩ := hrn.obj
  rw [ho] at hor
  obtain rfl := Option.some.inj hor
  obtain ⟨ot, hot, hbt⟩ := hR3.2.obj
  have htm := (hR3.2.base he2).mono he34
  refine Does.pure hw4 he4 ⟨⟨hm, ⟨o', ho', ?_⟩, hk ▸ he3.objs_lt⟩, htm, o', ot, ho', prefix_getElem? he34.objs hot, ?_⟩
  · rcases hb with hb | hb
    · rw [hb]; exact hbr
    · exact he3.bufs_lt.trans hb
  · -- the buffer of the reduced matrix is older than that of the transformation matrix, or newer than both
    have hro : o.buf < h2.bufs.length := by
      obtain ⟨oo, b, hoo, _, hbb, _⟩ := matrix_some hR.2.mat
      have := prefix_getElem? hR3.1.objs hoo
      rw [ho] at this
      obtain rfl := Option.some.inj this
      by_contra hc
      rw [List.getElem?_eq_none (by omega)] at hbb
      exact absurd hbb (by simp)
    have htm3 : ot.buf < h3.bufs.length := by
      obtain ⟨oo, b, hoo, _, hbb, _⟩ := matrix_some hR3.2.mat
      rw [hot] at hoo
      obtain rfl := Option.some.inj hoo
      by_contra hc
      rw [List.getElem?_eq_none (by omega)] at hbb
      exact absurd hbb (by simp)
    rcases hb with hb | hb
    · omega
    · omega

theorem resolve_two (s t : TMat ℝ) (ty : Option MTy) :
    TMat.resolveTypeConflict [s, t] ty = if s.ty = t.ty then .ok [s, t] else
      match ty with
      | none => .error .typeError
      | some ty => s.toType ty >>= fun s' => t.toType ty >>= fun t' => .ok [s', t'] := by
  unfold TMat.resolveTypeConflict TMat.typeConflict
  by_cases hc : s.ty = t.ty
  · simp [hc]
  · have : ¬ t.ty = s.ty := fun h => hc h.symm
    cases ty with
    | none => simp [this, hc]
    | some ty =>
      simp only [List.any_cons, ne_eq, not_true_eq_false, decide_false, this, not_false_eq_true, decide_true,
        List.any_nil, Bool.or_false, Bool.or_true, if_true, hc, if_false, TMat.toTypeAll]
      cases s.toType ty with
      | error e => rfl
      | ok a => cases t.toType ty <;> rfl

/-- `resolve_type_conflict` for two matrices: the objects returned are the given ones, or new objects. -/
theorem Does.resolve2 {h0 h : Heap} (hw : h.WF) (he : Ext h0 h) {i j : ℕ} {s t : TMat ℝ} (hi : h.matrix i = some s)
    (hj : h.matrix j = some t) (ty : Option MTy) :
    Does h0 h (HM.resolve2 ty i j) (TMat.resolveTypeConflict [s, t] ty)
      (fun h' p l => Ext h h' ∧ (i ≠ j → p.1 ≠ p.2) ∧ (∃ a b, l = [a, b] ∧ h'.matrix p.1 = some a ∧ h'.matrix p.2 = some b ∧
        (New h0 h i s → New h0 h' p.1 a) ∧ (New h0 h j t → New h0 h' p.2 b))) := by
  rw [resolve_two]
  unfold HM.resolve2
  refine Does.read hi (Does.read hj ?_)
  by_cases hc : s.ty = t.ty
  · simp only [hc, if_true]
    exact Does.pure hw he ⟨Ext.refl h, id, s, t, rfl, hi, hj, id, id⟩
  · simp only [hc, if_false]
    cases ty with
    | none => exact ⟨h, rfl, hw, he⟩
    | some ty =>
      refine Does.bind (R := fun h' k r => Ext h h' ∧ h'.matrix k = some r ∧ (New h0 h i s → New h0 h' k r) ∧
          k < h'.objs.length)
        ?_ (fun h1 i' s' _ hw1 he1 hR1 => ?_)
      · have h1 := Does.wrap hw he hi ty
        unfold Does at h1 ⊢
        cases hx : s.toType ty with
        | error e => rw [hx] at h1; exact h1
        | ok r =>
          rw [hx] at h1
          obtain ⟨h', a, hp, hw', he', hR⟩ := h1
          obtain ⟨_, o', _, ho', _⟩ := hR.2.2.2
          refine ⟨h', a, hp, hw', he', hR.1, hR.2.1, fun hn => ?_, (List.getElem?_eq_some_iff.1 ho').1⟩
          have h2 := Does.wrapNew hw he hn ty
          unfold Does at h2
          rw [hx] at h2
          obtain ⟨h'', a', hp', _, _, hR'⟩ := h2
          rw [hp] at hp'
          simp only [Prod.mk.injEq, Except.ok.injEq] at hp'
          obtain ⟨rfl, rfl⟩ := hp'
          exact hR'.2
      · have hj1 := hR1.1.matrix hj
        refine Does.bind (R := fun h' k r => Ext h1 h' ∧ h'.matrix k = some r ∧ (New h0 h1 j t → New h0 h' k r) ∧
            k = h1.objs.length)
          ?_ (fun h2 j' t' _ hw2 he2 hR2 => ?_)
        · have h2 := Does.wrap hw1 he1 hj1 ty
          unfold Does at h2 ⊢
          cases hx : t.toType ty with
          | error e => rw [hx] at h2; exact h2
          | ok r =>
            rw [hx] at h2
            obtain ⟨h', a, hp, hw', he', hR⟩ := h2
            refine ⟨h', a, hp, hw', he', hR.1, hR.2.1, fun hn => ?_, hR.2.2.1⟩
            have h2 := Does.wrapNew hw1 he1 hn ty
            unfold Does at h2
            rw [hx] at h2
            obtain ⟨h'', a', hp', _, _, hR'⟩ := h2
            rw [hp] at hp'
            simp only [Prod.mk.injEq, Except.ok.injEq] at hp'
            obtain ⟨rfl, rfl⟩ := hp'
            exact hR'.2
        · exact Does.pure hw2 he2 ⟨hR1.1.trans hR2.1,
            fun _ => by have := hR1.2.2.2; have := hR2.2.2.2; simp only; omega, s', t', rfl, hR2.1.matrix hR1.2.1, hR2.2.1,
            fun hn => (hR1.2.2.1 hn).mono hR2.1, fun hn => hR2.2.2.1 (hn.mono hR1.1)⟩

/-- The value computed by `project`, for a transformation that is or is not `Nmf`. -/
def projectVal (nmf : Bool) (m u : TMat ℝ) : Py (TMat ℝ) :=
  (if nmf then m.assertPositive else .ok ()) >>= fun _ =>
    TMat.resolveTypeConflict [m, u] (some m.ty) >>= fun l => match l with
    | [m', tm'] => m'.mul tm' >>= fun r =>
      (.ok (if nmf then r.toNonNegative else r) : Py (TMat ℝ)) >>= fun r' => r'.toType .dense
    | _ => .error .valueError

theorem projectVal_eq (m u : TMat ℝ) (t : DimRedT) (κ : Type) [DecidableEq κ] :
    (Op.dimred t (some u) : Op κ).project m = projectVal t.isNmf m u := by
  unfold Op.project projectVal
  cases hN : t.isNmf <;> simp [hN] <;> rfl

theorem Does.projectB {h : Heap} (hw : h.WF) {i tm : ℕ} {m u : TMat ℝ} (hi : h.matrix i = some m)
    (hu : h.matrix tm = some u) (nmf : Bool) :
    Does h h (HM.project nmf i tm) (projectVal nmf m u) (fun h' k r => New h h' k r) := by
  unfold HM.project projectVal
  refine Does.read hi ?_
  refine Does.bind (Does.lift hw (Ext.refl h) _) (fun h1 _ _ _ _ _ hR => ?_)
  obtain ⟨rfl, _⟩ := hR
  refine Does.bind (Does.resolve2 hw (Ext.refl h1) hi hu _) (fun h2 p l _ hw2 he2 hR => ?_)
  obtain ⟨_, _, a, b, rfl, ha, hb, _, _⟩ := hR
  refine Does.bind (Does.new_base he2 (Does.call2 hw2 he2 ha hb .mul)) (fun h3 r x _ hw3 he3 hR3 => ?_)
  refine Does.bind (R := fun h' _ y => New h1 h' r y) ?_ (fun h4 _ y _ hw4 he4 hR4 => ?_)
  · unfold HM.nonNegIf
    cases nmf with
    | false => exact Does.pure hw3 he3 hR3
    | true => exact Does.inPlace hw3 he3 hR3 .nonNegative
  · exact (Does.wrapNew hw4 he4 hR4 .dense).weaken (fun _ _ _ _ _ _ hR => hR.2)

theorem Does.project {h : Heap} (hw : h.WF) {i tm : ℕ} {m u : TMat ℝ} (hi : h.matrix i = some m)
    (hu : h.matrix tm = some u) (t : DimRedT) (κ : Type) [DecidableEq κ] :
    Does h h (HM.project t.isNmf i tm) ((Op.dimred t (some u) : Op κ).project m) (fun h' k r => New h h' k r) := by
  rw [projectVal_eq]
  exact Does.projectB hw hi hu t.isNmf

theorem Does.linSim {h : Heap} (hw : h.WF) {i j : ℕ} {s t : TMat ℝ} (hi : h.matrix i = some s)
    (hj : h.matrix j = some t) : Does h h (HM.linSim i j) (Dissect.linSim s t) (fun _ a b => a = b) := by
  unfold HM.linSim Dissect.linSim
  refine Does.read hi (Does.read hj ?_)
  refine Does.bind (Does.call2 hw (Ext.refl h) hi hj .multiply) (fun h1 c p _ hw1 he1 hR => ?_)
  have h2 := Does.bind (Does.inPlace hw1 he1 hR.2 .ones)
    (f := fun _ => if s.sumAll + t.sumAll = 0 then (Pure.pure 0 : HM ℝ) else do
      let s' ← HM.call2 .add i j
      let c' ← HM.call2 .multiply c s'
      let t' ← HM.read c'
      Pure.pure (t'.sumAll / (s.sumAll + t.sumAll)))
    (g := fun q => if s.sumAll + t.sumAll = 0 then (.ok 0 : Py ℝ) else do
      let s' ← s.add t
      let c' ← q.multiply s'
      Pure.pure (c'.sumAll / (s.sumAll + t.sumAll)))
    (S := fun _ a b => a = b) (fun h2 _ q _ hw2 he2 hn => ?_)
  · exact h2
  · by_cases h0 : s.sumAll + t.sumAll = 0
    · simp only [h0, if_true]
      exact Does.pure hw2 he2 rfl
    · simp only [h0, if_false]
      refine Does.bind (Does.call2 hw2 he2 (he2.matrix hi) (he2.matrix hj) .add) (fun h3 k x _ hw3 he3 hR3 => ?_)
      refine Does.bind (Does.call2 hw3 he3 (hR3.1.matrix hn.mat) hR3.2.mat .multiply) (fun h4 k' y _ hw4 he4 hR4 => ?_)
      exact Does.read hR4.2.mat (Does.pure hw4 he4 rfl)

theorem Does.paddIf {h0 h : Heap} (hw : h.WF) (he : Ext h0 h) {i : ℕ} {t : TMat ℝ} (hv : h.matrix i = some t)
    (b : Bool) : Does h0 h (HM.paddIf b i) (if b then t.padd 0 1 else .ok t)
      (fun h' k r => Ext h h' ∧ h'.matrix k = some r) := by
  cases b with
  | false => exact Does.pure hw he ⟨Ext.refl h, hv⟩
  | true => exact (Does.padd hw he hv 0 1).weaken (fun _ _ _ _ _ _ hR => ⟨hR.1, hR.2.mat⟩)

theorem Does.lexCompose {h0 h : Heap} (hw : h.WF) (he : Ext h0 h) {f a : ℕ} {s t : TMat ℝ} (hf : New h0 h f s)
    (ha : New h0 h a t) (b : Bool) (shape : List ℕ)
    (hsep : ∀ h' r, HM.reshapeIn f shape.dropLast.prod r h = (h', .ok ()) → h'.matrix a = some t) :
    Does h0 h (HM.lexCompose b f a shape) (Dissect.lexCompose b s t shape) (fun h' k r => New h0 h' k r) := by
  unfold HM.lexCompose Dissect.lexCompose
  cases hg : shape.getLast? with
  | none => exact ⟨h, rfl, hw, he⟩
  | some n =>
    cases hd : shape.dropLast with
    | nil =>
      simp only
      refine Does.read hf.mat ?_
      cases s.ty with
      | sparse => exact ⟨h, rfl, hw, he⟩
      | dense => exact ⟨h, rfl, hw, he⟩
    | cons x xs =>
      simp only
      rw [hd] at hsep
      refine Does.bind (R := fun h' _ r => New h0 h' f r ∧ h'.matrix a = some t) ?_ (fun h1 _ s' _ hw1 he1 hR1 => ?_)
      · have h1 := Does.inPlace hw he hf (.reshape (x :: xs).prod n)
        unfold Does at h1 ⊢
        have e1 : InPlace.eval (.reshape (x :: xs).prod n) s = s.reshape (x :: xs).prod n := rfl
        rw [e1] at h1
        cases hx : s.reshape (x :: xs).prod n with
        | error e => rw [hx] at h1; exact h1
        | ok r =>
          rw [hx] at h1
          obtain ⟨h', u, hp, hw', he', hR⟩ := h1
          exact ⟨h', u, hp, hw', he', hR, hsep h' n hp⟩
      · refine Does.bind (Does.call1 hw1 he1 hR1.2 .transpose) (fun h2 k u _ hw2 he2 hR2 => ?_)
        have hv : (if b = true then (u.padd 0 1 >>= fun t' => s'.mul t' >>= fun r => r.transpose) else
            ((.ok u : Py (TMat ℝ)) >>= fun t' => s'.mul t' >>= fun r => r.transpose)) =
            ((if b = true then u.padd 0 1 else .ok u) >>= fun t' => s'.mul t' >>= fun r => r.transpose) := by
          cases b <;> rfl
        rw [hv]
        refine Does.bind (Does.paddIf hw2 he2 hR2.2.mat b) (fun h3 k' u' _ hw3 he3 hR3 => ?_)
        refine Does.bind (Does.call2 hw3 he3 (hR3.1.matrix (hR2.1.matrix hR1.1.mat)) hR3.2 .mul)
          (fun h4 k2 v _ hw4 he4 hR4 => ?_)
        exact Does.new_base he4 (Does.call1 hw4 he4 hR4.2.mat .transpose)

/-- Reshaping one object does not change the matrix another object stands for. -/
theorem reshapeIn_other {h h' : Heap} (hw : h.WF) {f a nr nc : ℕ} (hne : f ≠ a)
    (hr : HM.reshapeIn f nr nc h = (h', .ok ())) : h'.matrix a = h.matrix a := by
  unfold HM.reshapeIn at hr
  cases ho : h.objs[f]? with
  | none => rw [ho] at hr; simp at hr
  | some o =>
    cases hv : h.matrix f with
    | none => rw [ho, hv] at hr; simp at hr
    | some t =>
      rw [ho, hv] at hr
      simp only at hr
      split at hr
      · cases hd : o.ty with
        | dense =>
          rw [hd] at hr
          simp only [Prod.mk.injEq, and_true] at hr
          subst hr
          unfold matrix reshapeView value
          simp [List.getElem?_modify, hne]
        | sparse =>
          rw [hd] at hr
          simp only [Prod.mk.injEq, and_true] at hr
          subst hr
          unfold matrix
          rw [rebind_other hne]
          cases ho2 : h.objs[a]? with
          | none => rfl
          | some o2 =>
            obtain ⟨b, hb, _⟩ := hw o2 (List.mem_of_getElem? ho2)
            simp only [Option.bind_some, value]
            rw [hb, prefix_getElem? (l := h.bufs) (l' := (h.rebind f _).bufs) (List.prefix_append _ _) hb]
      · simp at hr

/-- The value computed for one phrase of `LexicalFunction.compose`. -/
def lexOneVal (b : Bool) (s t : TMat ℝ) (fi ai : ℤ) (shape : List ℕ) : Py (TMat ℝ) :=
  s.getRow fi >>= fun v1 => t.getRow ai >>= fun v2 =>
    TMat.resolveTypeConflict [v1, v2] (TMat.typeOfLargest [v1, v2]) >>= fun l => match l with
    | [a, c] => Dissect.lexCompose b a c shape
    | _ => .error .valueError

theorem Does.lexOneB {h : Heap} (hw : h.WF) {i j : ℕ} {fs arg : TMat ℝ} (hi : h.matrix i = some fs)
    (hj : h.matrix j = some arg) (b : Bool) (fi ai : ℤ) (shape : List ℕ) :
    Does h h (HM.lexOne b i j fi ai shape) (lexOneVal b fs arg fi ai shape) (fun h' k r => New h h' k r) := by
  unfold HM.lexOne lexOneVal
  refine Does.read hi (Does.read hj ?_)
  refine Does.bind (Does.call1 hw (Ext.refl h) hi (.row fi)) (fun h1 v1 s _ hw1 he1 hR1 => ?_)
  refine Does.bind (Does.call1 hw1 he1 (he1.matrix hj) (.row ai)) (fun h2 v2 t _ hw2 he2 hR2 => ?_)
  have hn1 : New h h2 v1 s := hR1.2.mono hR2.1
  have hn2 : New h h2 v2 t := hR2.2.base he1
  have hv12 : v1 < v2 := by
    obtain ⟨o, ho, _⟩ := hR1.2.obj
    exact lt_of_lt_of_le (List.getElem?_eq_some_iff.1 ho).1 hR2.2.idx
  refine Does.read hn1.mat (Does.read hn2.mat ?_)
  refine Does.bind (Does.resolve2 hw2 he2 hn1.mat hn2.mat _) (fun h3 p l _ hw3 he3 hR3 => ?_)
  obtain ⟨_, hne, a, c, rfl, ha, hc, hna, hnc⟩ := hR3
  exact Does.lexCompose hw3 he3 (hna hn1) (hnc hn2) b _
    (fun h' r hr => by rw [reshapeIn_other hw3 (hne (ne_of_lt hv12)) hr]; exact hc)

/-- One phrase of `LexicalFunction.compose`. -/
theorem Does.lexOne {κ : Type} [DecidableEq κ] {h : Heap} (hw : h.WF) {i j : ℕ} {fs arg : Space κ}
    (hi : h.matrix i = some fs.mat) (hj : h.matrix j = some arg.mat) (b : Bool) {f w : κ} {fi ai : ℤ}
    (hf : fs.row2id.getItem f = .ok fi) (ha : arg.row2id.getItem w = .ok ai) :
    Does h h (HM.lexOne b i j fi ai fs.elemShape) (Dissect.lexOne b fs arg f w) (fun h' k r => New h h' k r) := by
  have : Dissect.lexOne b fs arg f w = lexOneVal b fs.mat arg.mat fi ai fs.elemShape := by
    unfold Dissect.lexOne lexOneVal Space.getRow
    rw [hf, ha]
    rfl
  rw [this]
  exact Does.lexOneB hw hi hj b fi ai _

/-! ### What every call leaves alone -/

theorem Does.frame {α β : Type} {h0 h : Heap} {p : HM α} {v : Py β} {R : Heap → α → β → Prop} (hd : Does h0 h p v R) :
    (p h).1.WF ∧ Ext h0 (p h).1 := by
  unfold Does at hd
  cases v with
  | error e => obtain ⟨h', hp, hw, he⟩ := hd; rw [hp]; exact ⟨hw, he⟩
  | ok b => obtain ⟨h', a, hp, hw, he, _⟩ := hd; rw [hp]; exact ⟨hw, he⟩

theorem Does.result {α β : Type} {h0 h h' : Heap} {p : HM α} {v : Py β} {R : Heap → α → β → Prop} {a : α}
    (hd : Does h0 h p v R) (hp : p h = (h', .ok a)) : ∃ b, v = .ok b ∧ R h' a b := by
  unfold Does at hd
  cases v with
  | error e => obtain ⟨h2, hp2, _, _⟩ := hd; rw [hp] at hp2; simp at hp2
  | ok b =>
    obtain ⟨h2, a2, hp2, _, _, hR⟩ := hd
    rw [hp] at hp2
    simp only [Prod.mk.injEq, Except.ok.injEq] at hp2
    obtain ⟨rfl, rfl⟩ := hp2
    exact ⟨b, rfl, hR⟩

/-- A program whose argument is not a `Matrix` fails at once. -/
theorem read_none {α : Type} {h : Heap} {i : ℕ} (hv : h.matrix i = none) (f : TMat ℝ → HM α) :
    (HM.read i >>= f) h = (h, .error .attributeError) := by
  show HM.andThen (HM.read i) f h = _
  unfold HM.andThen HM.read
  rw [hv]

theorem map_run {α β : Type} (p : HM α) (f : α → β) :
    (p >>= fun r => (pure (f r) : HM β)) h = ((p h).1, (p h).2.map f) := by
  show HM.andThen p _ h = _
  unfold HM.andThen
  rcases p h with ⟨h', _ | _⟩ <;> rfl

end HM
end
end Dissect
