import Verif.Props.Classes
import Verif.Props.PeriphBatch

/-! # C163: peripheral rows given densely or sparsely -/

namespace Dissect
open Finset
variable {κ : Type} [DecidableEq κ]

/-- How a core space was obtained: scalings, selections of at least one column and SVD reductions of a raw space with
words and contexts, every SVD call returning singular triples. -/
structure CoreOf (env : Env) (raw core : Space κ) (ts : List Trans) : Prop where
  wf : raw.WF
  fresh : raw.ops = []
  nr : 0 < raw.mat.nr
  nc : 0 < raw.mat.nc
  exact : ∀ t ∈ ts, t.Exact
  svd : ∀ pre k post s, ts = pre ++ .dimred (.svd k) :: post → raw.applyAll env pre = .ok s → SvdCallOk env s.mat k
  made : raw.applyAll env ts = .ok core

theorem CoreOf.repro {env : Env} {raw core : Space κ} {ts : List Trans} (h : CoreOf env raw core ts) :
    Reproduces raw core := reproduces_applyAll h.fresh h.nr h.nc h.exact h.svd h.made

theorem CoreOf.good {env : Env} {raw core : Space κ} {ts : List Trans} (h : CoreOf env raw core ts) {A : Mat ℝ}
    (hA : A.nc = raw.mat.nc) {ty : MTy} (ty' : MTy) (hg : (opsMap core.ops).Good ⟨ty, A⟩) :
    (opsMap core.ops).Good ⟨ty', A⟩ :=
  ⟨by
    show (opsMap core.ops).ok ty' A.nc
    rw [hA]
    exact h.repro.okAll ty', hg.2⟩

omit [DecidableEq κ] in
theorem shapeCheck_congr {a b : TMat ℝ} (h1 : a.nr = b.nr) (h2 : a.nc = b.nc) (r c : List κ) (rd cd : Dict κ ℤ) :
    Space.shapeCheck a r c rd cd = Space.shapeCheck b r c rd cd := by
  unfold Space.shapeCheck
  rw [h1, h2]

/-- **C163** A peripheral space can be built from rows given as a matrix of one class exactly when it can be built from
the same rows given as a matrix of the other class, and the two spaces differ at most in the class of the matrix. -/
theorem C163_new (env : Env) (raw core : Space κ) (ts : List Trans) (h : CoreOf env raw core ts) (A : Mat ℝ) (hr : 0 < A.nr)
    (hA : A.nc = raw.mat.nc) (ty ty' : MTy) (ws : List κ) (d : Option (Dict κ ℤ)) (p : Space κ)
    (hp : Periph.new core ⟨ty, A⟩ ws d = .ok p) : ∃ p', Periph.new core ⟨ty', A⟩ ws d = .ok p' ∧ Twin p p' := by
  obtain ⟨h1, h2, h3, h4, h5, h6, h7⟩ := periphNew_eq_ok hp
  have hM := models_projAll core.ops
  obtain ⟨hg, hout⟩ := hM.eq_ok (m := ⟨ty, A⟩) hr h1
  have h1' := (hM ⟨ty', A⟩ hr).1 (h.good hA ty' hg)
  have hv : p.mat.val = ((opsMap core.ops).out ⟨ty', A⟩).val := by rw [hout]; rfl
  have hnr : p.mat.nr = ((opsMap core.ops).out ⟨ty', A⟩).nr := by rw [hout]; rfl
  have hnc : p.mat.nc = ((opsMap core.ops).out ⟨ty', A⟩).nc := by rw [hout]; rfl
  rw [shapeCheck_congr hnr hnc, h3] at h7
  exact ⟨_, periphNew_ok h1' h2 h6 h7, ⟨h3, rfl, rfl, rfl, h4, by rw [h5, hnc], hv⟩⟩

/-! ### The class of the projected rows -/

/-- Whether a transformation is a dimensionality reduction. -/
def Trans.Reduces : Trans → Prop
  | .dimred _ => True
  | _ => False

instance (t : Trans) : Decidable t.Reduces := by cases t <;> unfold Trans.Reduces <;> infer_instance

/-- After a dimensionality reduction the projected rows are dense; without one they keep their class. -/
theorem ops_ty {env : Env} {raw : Space κ} (hraw : raw.ops = []) {ts : List Trans} {core : Space κ}
    (h : raw.applyAll env ts = .ok core) (ty : MTy) :
    ((∃ t ∈ ts, t.Reduces) → (opsMap core.ops).ty ty = .dense) ∧ ((∀ t ∈ ts, ¬ t.Reduces) → (opsMap core.ops).ty ty = ty) := by
  induction ts using List.reverseRecOn generalizing core with
  | nil =>
    obtain rfl := ok_inj h
    rw [hraw]
    simp [opsMap, RowMap.id]
  | append_singleton ts t ih =>
    rw [applyAll_append, bind_eq_ok] at h
    obtain ⟨s, h1, h2⟩ := h
    obtain ⟨op, m, hop, op', ho, _, _, _, _, _, h7, _⟩ := apply_eq_ok h2
    obtain ⟨i1, i2⟩ := ih h1
    have key : (t.Reduces → op'.rowMap.ty ((opsMap s.ops).ty ty) = .dense) ∧
        (¬ t.Reduces → ∀ u, op'.rowMap.ty u = u) := by
      cases t with
      | scaling st =>
        obtain ⟨rfl, _⟩ := opApply_scaling hop
        simp only at h7
        subst h7
        exact ⟨fun h => h.elim, fun _ u => by cases st <;> rfl⟩
      | dimred dt =>
        obtain ⟨r0, tm, hap, rfl, rfl⟩ := opApply_dimred hop
        simp only at h7
        subst h7
        exact ⟨fun _ => rfl, fun h => absurd trivial h⟩
      | featsel k c =>
        obtain ⟨sel, htf, rfl⟩ := opApply_featsel hop
        simp only at h7
        subst h7
        exact ⟨fun h => h.elim, fun _ u => rfl⟩
    rw [ho, (opsMap_append _ _ ty 0).1]
    constructor
    · rintro ⟨x, hx, hxr⟩
      by_cases ht : t.Reduces
      · exact key.1 ht
      · rw [key.2 ht]
        rcases List.mem_append.1 hx with hx | hx
        · exact i1 ⟨x, hx, hxr⟩
        · rw [List.mem_singleton.1 hx] at hxr
          exact absurd hxr ht
    · intro hall
      rw [key.2 (hall t (by simp)), i2 (fun x hx => hall x (List.mem_append_left _ hx))]

/-! ### Adding rows -/

/-- The same rows with the same labels, possibly in a matrix of the other class. -/
def SameBatch (a b : TMat ℝ × List κ) : Prop := a.1.val = b.1.val ∧ a.2 = b.2

/-- One step: a batch may be replaced by one of another class that is projected to the same class. -/
theorem addRows_class {env : Env} {raw core : Space κ} {ts : List Trans} (h : CoreOf env raw core ts) {p q : Space κ}
    (hops : p.ops = core.ops) (hc : p.id2col = core.id2col) (hd : p.col2id = core.col2id) {b b' : TMat ℝ} {ws : List κ}
    (hv : b.val = b'.val) (hr : 0 < b.nr) (hb : b.nc = raw.mat.nc)
    (hty : (opsMap core.ops).ty b.ty = (opsMap core.ops).ty b'.ty)
    (hq : Periph.addRows p b ws = (q, .ok ())) :
    Periph.addRows p b' ws = (q, .ok ()) ∧ q.ops = core.ops ∧ q.id2col = core.id2col ∧ q.col2id = core.col2id := by
  have hfix : ColsFixed p.ops p.id2col p.col2id := by rw [hops, hc, hd]; exact applyAll_cols h.fresh h.made
  obtain ⟨d, m', mm, e1, e2, e3, e4, e5, rfl⟩ := (addRows_ok_iff hfix).1 hq
  obtain ⟨ty, B⟩ := b
  obtain ⟨ty', B'⟩ := b'
  simp only at hv hty
  subst hv
  refine ⟨(addRows_ok_iff hfix).2 ⟨d, m', mm, e1, e2, ?_, e4, e5, rfl⟩, hops, hc, hd⟩
  have hM := models_projAll core.ops
  rw [hops] at e3 ⊢
  obtain ⟨hg, rfl⟩ := hM.eq_ok (m := ⟨ty, B⟩) hr e3
  rw [(hM ⟨ty', B⟩ hr).1 (h.good hb ty' hg)]
  unfold RowMap.out
  simp only [hty, TMat.nr, TMat.nc]

theorem addBatches_class {env : Env} {raw core : Space κ} {ts : List Trans} (h : CoreOf env raw core ts)
    (hred : ∃ t ∈ ts, t.Reduces) {bs bs' : List (TMat ℝ × List κ)} (hs : List.Forall₂ SameBatch bs bs') :
    ∀ {p q : Space κ}, p.ops = core.ops → p.id2col = core.id2col → p.col2id = core.col2id →
    (∀ b ∈ bs, 0 < b.1.nr ∧ b.1.nc = raw.mat.nc) → Periph.addBatches p bs = .ok q → Periph.addBatches p bs' = .ok q := by
  induction hs with
  | nil => exact fun _ _ _ _ h => h
  | @cons a b as bs hab _ ih =>
    intro p q h1 h2 h3 hbs hq
    obtain ⟨m, ws⟩ := a
    obtain ⟨m', ws'⟩ := b
    obtain ⟨hv, hw⟩ := hab
    simp only at hv hw
    subst hw
    unfold Periph.addBatches at hq ⊢
    rcases ha : Periph.addRows p m ws with ⟨p', out⟩
    rw [ha] at hq
    cases out with
    | error e => cases hq
    | ok u =>
      obtain ⟨k1, k2, k3, k4⟩ := addRows_class h h1 h2 h3 hv (hbs _ List.mem_cons_self).1 (hbs _ List.mem_cons_self).2
        (by rw [(ops_ty h.fresh h.made _).1 hred, (ops_ty h.fresh h.made _).1 hred]) ha
      rw [k1]
      exact ih k2 k3 k4 (fun b hb => hbs b (List.mem_cons_of_mem _ hb)) hq

/-- **C163** (true part, one class for all). If every batch has the class of the first rows, the whole construction may
be done in the other class instead: the same calls succeed and the spaces differ at most in the class of the matrix. -/
theorem C163_same_class_partial (env : Env) (raw core : Space κ) (ts : List Trans) (h : CoreOf env raw core ts)
    (A : Mat ℝ) (hr : 0 < A.nr) (hA : A.nc = raw.mat.nc) (ws : List κ) (bs : List (Mat ℝ × List κ))
    (hws : A.nr = ws.length) (hbs : ∀ b ∈ bs, 0 < b.1.nr ∧ b.1.nr = b.2.length ∧ b.1.nc = raw.mat.nc) (ty ty' : MTy) (q p : Space κ)
    (hq : Periph.new core ⟨ty, A⟩ ws none = .ok q) (hp : Periph.addBatches q (bs.map (fun b => (⟨ty, b.1⟩, b.2))) = .ok p) :
    ∃ q' p', Periph.new core ⟨ty', A⟩ ws none = .ok q' ∧
      Periph.addBatches q' (bs.map (fun b => (⟨ty', b.1⟩, b.2))) = .ok p' ∧ Twin q q' ∧ Twin p p' := by
  have hfix := applyAll_cols h.fresh h.made
  have hcols := ((applyAll_rows h.made).2.2 h.wf).cols
  have hw : ∀ t : MTy, 0 < (opsMap core.ops).width (⟨t, A⟩ : TMat ℝ).nc := fun t => by
    show 0 < (opsMap core.ops).width A.nc
    rw [hA, h.repro.width]; exact h.repro.wide
  have hb : ∀ t : MTy, ∀ b ∈ bs.map (fun b => ((⟨t, b.1⟩ : TMat ℝ), b.2)),
      0 < b.1.nr ∧ b.1.nr = b.2.length ∧ b.1.ty = (⟨t, A⟩ : TMat ℝ).ty ∧ b.1.nc = (⟨t, A⟩ : TMat ℝ).nc := by
    intro t b hb
    obtain ⟨c, hc, rfl⟩ := List.mem_map.1 hb
    obtain ⟨k1, k2, k3⟩ := hbs c hc
    exact ⟨k1, k2, rfl, k3.trans hA.symm⟩
  have hstack : ∀ (l : List (Mat ℝ × List κ)) (B : Mat ℝ), (∀ b ∈ l, b.1.nc = B.nc) → ∃ C : Mat ℝ, C.nc = B.nc ∧ B.nr ≤ C.nr ∧
      ∀ t : MTy, stackRows ⟨t, B⟩ (l.map (fun b => ((⟨t, b.1⟩ : TMat ℝ), b.2))) = ⟨t, C⟩ := by
    intro l
    induction l with
    | nil => exact fun B _ => ⟨B, rfl, le_rfl, fun t => rfl⟩
    | cons b l ih =>
      intro B hB
      obtain ⟨C, c1, c2, c3⟩ := ih (B.vstack b.1) (fun x hx => (hB x (List.mem_cons_of_mem _ hx)).trans rfl)
      exact ⟨C, c1, le_trans (Nat.le_add_right _ _) c2, fun t => c3 t⟩
  obtain ⟨C, c1, c2, c3⟩ := hstack bs A (fun b hb => (hbs b hb).2.2.trans hA.symm)
  have hlab : ∀ t t' : MTy, stackLabels ws (bs.map (fun b => ((⟨t, b.1⟩ : TMat ℝ), b.2))) =
      stackLabels ws (bs.map (fun b => ((⟨t', b.1⟩ : TMat ℝ), b.2))) := by
    intro t t'
    simp [stackLabels, List.flatMap_map]
  have hall := (batches_iff hfix hcols _ ⟨ty, A⟩ ws p hr hws (hw ty) (hb ty)).1 ⟨q, hq, hp⟩
  rw [c3, hlab ty ty'] at hall
  obtain ⟨p', hp', tw⟩ := C163_new env raw core ts h C (lt_of_lt_of_le hr c2) (c1.trans hA) ty ty' _ _ p hall
  obtain ⟨q', hq', hb'⟩ := (batches_iff hfix hcols _ ⟨ty', A⟩ ws p' hr hws (hw ty') (hb ty')).2 (by rw [c3]; exact hp')
  obtain ⟨q2, hq2, tq⟩ := C163_new env raw core ts h A hr hA ty ty' ws none q hq
  rw [hq'] at hq2
  obtain rfl := ok_inj hq2
  exact ⟨q', p', hq', hb', tq, tw⟩

/-- **C163** (true part, reduced spaces). If the core space was reduced, the batches may mix dense and sparse matrices
in any way: the result is the same space. -/
theorem C163_reduced_partial (env : Env) (raw core : Space κ) (ts : List Trans) (h : CoreOf env raw core ts)
    (hred : ∃ t ∈ ts, t.Reduces) (m : TMat ℝ) (ws : List κ) (d : Option (Dict κ ℤ)) (bs bs' : List (TMat ℝ × List κ))
    (hs : List.Forall₂ SameBatch bs bs') (hbs : ∀ b ∈ bs, 0 < b.1.nr ∧ b.1.nc = raw.mat.nc) (q p : Space κ)
    (hq : Periph.new core m ws d = .ok q) (hp : Periph.addBatches q bs = .ok p) : Periph.addBatches q bs' = .ok p := by
  obtain ⟨_, h2, _, h4, _⟩ := periphNew_eq_ok hq
  rw [(applyAll_cols h.fresh h.made).self] at h2
  have := ok_inj h2
  simp only [Prod.mk.injEq] at this
  exact addBatches_class h hred hs h4 this.1.symm this.2.symm hbs hp

/-- **C163** is false: without a reduction, adding rows given in the other class than the first rows always raises
`TypeError`, although the same rows in the first class would have been accepted; the new words are listed all the same. -/
theorem C163_other_class_refuted (env : Env) (raw core : Space κ) (ts : List Trans) (h : CoreOf env raw core ts)
    (hred : ∀ t ∈ ts, ¬ t.Reduces) (m : TMat ℝ) (hm : 0 < m.nr) (ws : List κ)
    (d : Option (Dict κ ℤ)) (q p : Space κ)
    (hq : Periph.new core m ws d = .ok q) (b b' : TMat ℝ) (hb : 0 < b.nr) (hbc : b.nc = raw.mat.nc) (hv : b.val = b'.val)
    (hty' : b'.ty ≠ m.ty) (ws' : List κ)
    (hp : Periph.addRows q b ws' = (p, .ok ())) :
    (Periph.addRows q b' ws').2 = .error .typeError ∧ (Periph.addRows q b' ws').1.id2row = q.id2row ++ ws' ∧
      (Periph.addRows q b' ws').1.mat = q.mat := by
  obtain ⟨h1, h2, _, h4, _⟩ := periphNew_eq_ok hq
  rw [(applyAll_cols h.fresh h.made).self] at h2
  have := ok_inj h2
  simp only [Prod.mk.injEq] at this
  have hfix : ColsFixed q.ops q.id2col q.col2id := by rw [h4, ← this.1, ← this.2]; exact applyAll_cols h.fresh h.made
  obtain ⟨d', m', mm, e1, e2, e3, e4, e5, rfl⟩ := (addRows_ok_iff hfix).1 hp
  have hM := models_projAll core.ops
  obtain ⟨_, hqm⟩ := hM.eq_ok hm h1
  rw [h4] at e3
  obtain ⟨ty, B⟩ := b
  obtain ⟨ty', B'⟩ := b'
  simp only at hv hty'
  subst hv
  obtain ⟨hg, rfl⟩ := hM.eq_ok (m := ⟨ty, B⟩) hb e3
  have e3' := (hM ⟨ty', B⟩ hb).1 (h.good hbc ty' hg)
  have hpo := (projectOps_spec q.ops q.id2col q.col2id ⟨ty', B⟩).2 _ _ (by rw [h4]; exact e3') hfix.self
  have hvs : q.mat.vstack ((opsMap core.ops).out ⟨ty', B⟩) = .error .typeError := by
    unfold TMat.vstack
    rw [if_neg]
    rw [hqm]
    show ¬ (opsMap core.ops).ty m.ty = (opsMap core.ops).ty ty'
    rw [(ops_ty h.fresh h.made _).2 hred, (ops_ty h.fresh h.made _).2 hred]
    exact fun e => hty' e.symm
  unfold Periph.addRows
  have e2' : (⟨ty', B⟩ : TMat ℝ).nr = ws'.length := e2
  simp only [e1, e2', hpo, hvs, ne_eq, not_true_eq_false, if_false]
  exact ⟨trivial, trivial, trivial⟩

end Dissect
