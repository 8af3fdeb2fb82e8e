import Verif.Lemmas.Periph
import Verif.Props.Nmf

/-! # Peripheral spaces: C24 (core rows), C25 (batches), C26 (columns) -/

namespace Dissect
open Finset
variable {κ : Type} [DecidableEq κ]

/-- The singular value routine called for `Svd(k)` on the matrix `m` (numpy for dense, sparsesvd for sparse), unless it
raises, returns singular triples of `m`. -/
def SvdCallOk (env : Env) (m : TMat ℝ) (k : ℕ) : Prop :=
  match m.ty with
  | .dense => ∀ u s vt, env.npSvd m.val = .ok (u, s, vt) → IsSvd m.val u s vt
  | .sparse => ∀ ut s vt, env.sparseSvd m.val (k + k / 10) = .ok (ut, s, vt) → SingularTriples m.val ut.transpose s vt

theorem ex_svdCall (k : ℕ) : SvdCallOk exEnv ⟨.dense, exDiag⟩ k := by
  intro u s vt h
  have h' := ok_inj (show (.ok (exOne, [3, 2], exOne) : Py _) = .ok (u, s, vt) from h)
  simp only [Prod.mk.injEq] at h'
  obtain ⟨rfl, rfl, rfl⟩ := h'
  exact ex_isSvd

/-- Transformations the property C24 is about: any scaling, feature selection and SVD to a positive dimension (the
constructors refuse others, C21_dimension_zero). -/
def Trans.Exact : Trans → Prop
  | .scaling _ => True
  | .dimred (.svd k) => 0 < k
  | .dimred (.nmf _ _) => False
  | .featsel k _ => 0 < k

/-- If `Svd(k)` succeeds, numpy's routine has returned. -/
theorem svd_returned {env : Env} {m : TMat ℝ} {k : ℕ} {x : TMat ℝ × TMat ℝ} (hty : m.ty = .dense)
    (h : (DimRedT.svd k).apply env m = .ok x) : ∃ u s vt, env.npSvd m.val = .ok (u, s, vt) := by
  simp only [DimRedT.apply, Dissect.svd, hty, bind_eq_ok] at h
  obtain ⟨_, h, -⟩ := h
  split at h
  · cases h
  · simp only [denseSvd, bind_eq_ok] at h
    obtain ⟨⟨u, s, vt⟩, he, -⟩ := h
    exact ⟨u, s, vt, he⟩

/-- If `Svd(k)` succeeds on a sparse matrix, sparsesvd has returned, with at least one dimension. -/
theorem svd_returned_sparse {env : Env} {m : TMat ℝ} {k : ℕ} {x : TMat ℝ × TMat ℝ} (hty : m.ty = .sparse)
    (h : (DimRedT.svd k).apply env m = .ok x) :
    ∃ ut s vt, env.sparseSvd m.val (k + k / 10) = .ok (ut, s, vt) ∧ 0 < ut.transpose.nc := by
  simp only [DimRedT.apply, Dissect.svd, hty, bind_eq_ok] at h
  obtain ⟨_, h, -⟩ := h
  split at h
  · cases h
  · simp only [sparseSvd, bind_eq_ok] at h
    obtain ⟨⟨u, s, vt⟩, he, u0, hu0, -⟩ := h
    exact ⟨u, s, vt, he, (TMat.ofNumpy_eq_ok hu0).2.2⟩

/-- `Svd(k)` on a matrix: multiplying by the transformation gives the reduced matrix, and its width is positive. -/
theorem svd_apply_spec {env : Env} {m r0 tm : TMat ℝ} {k : ℕ} (hk : 0 < k) (hr : 0 < m.nr) (hc : 0 < m.nc)
    (hs : SvdCallOk env m k) (h : (DimRedT.svd k).apply env m = .ok (r0, tm)) :
    m.mul tm = .ok r0 ∧ 0 < r0.nc ∧ tm.nr = m.nc := by
  cases hty : m.ty with
  | dense =>
    rw [SvdCallOk, hty] at hs
    simp only at hs
    obtain ⟨u, s, vt, he⟩ := svd_returned hty h
    replace hs := hs u s vt he
    by_cases hrank : ∃ x ∈ s, svdTol < x
    · obtain ⟨red, V, h1, _, _, h4, h5, h6, _⟩ := C21_dense env m k _ _ _ hty hr hc hk he hs hrank
      rw [h] at h1
      have := ok_inj h1
      simp only [Prod.mk.injEq] at this
      obtain ⟨rfl, rfl⟩ := this
      exact ⟨h6, h4, h5⟩
    · push Not at hrank
      rw [C21_dense_rank_zero env m k _ _ _ hty he hrank] at h
      cases h
  | sparse =>
    rw [SvdCallOk, hty] at hs
    simp only at hs
    obtain ⟨ut, s, vt, he, hpos⟩ := svd_returned_sparse hty h
    replace hs := hs ut s vt he
    rw [hs.uCols] at hpos
    obtain ⟨red, V, h1, _, h3, h5, h6, _⟩ := C21_sparse env m k _ _ _ hty hr hc hk he hs hpos
    rw [h] at h1
    have := ok_inj h1
    simp only [Prod.mk.injEq] at this
    obtain ⟨rfl, rfl⟩ := this
    exact ⟨h6, by rw [h3]; exact lt_min hk hpos, h5⟩

/-- What is kept along a sequence of transformations: projecting the raw matrix reproduces the current matrix; rows
of either class can be projected. -/
structure Reproduces (raw s : Space κ) : Prop where
  proj : projAll s.ops raw.mat = .ok s.mat
  rows : s.mat.nr = raw.mat.nr
  wide : 0 < s.mat.nc
  okAll : ∀ ty, (opsMap s.ops).ok ty raw.mat.nc
  width : (opsMap s.ops).width raw.mat.nc = s.mat.nc

theorem Reproduces.step {env : Env} {raw s s' : Space κ} {t : Trans} (hr : 0 < raw.mat.nr) (h : Reproduces raw s)
    (ht : t.Exact) (hs : ∀ k, t = .dimred (.svd k) → SvdCallOk env s.mat k) (ha : s.apply env t = .ok s') :
    Reproduces raw s' := by
  obtain ⟨op, m, hop, op', h1, h2, _, _, _, _, h7, _⟩ := apply_eq_ok ha
  have hrs : 0 < s.mat.nr := by rw [h.rows]; exact hr
  have main : op'.project s.mat = .ok m ∧ 0 < m.nc ∧ (∀ ty, op'.rowMap.ok ty s.mat.nc) := by
    cases t with
    | scaling st =>
      obtain ⟨rfl, hst⟩ := opApply_scaling hop
      simp only at h7
      subst h7
      have hsh := applyT_shape hrs hst
      refine ⟨?_, by rw [hsh.2.2]; exact h.wide, ?_⟩
      · cases st <;> exact hst
      · intro ty
        have hw := h.wide
        cases st <;>
          simp [Op.rowMap, ScalingT.usesStats, ScalingT.columnStats, epmiMap, plmiMap, plogWMap, rowNormMap, normMap,
            RowMap.comp, plogMap, TMat.sum0, hw]
    | dimred dt =>
      cases dt with
      | nmf k ch => exact absurd ht (by simp [Trans.Exact])
      | svd k =>
        obtain ⟨r0, tm, hap, rfl, rfl⟩ := opApply_dimred hop
        simp only at h7
        subst h7
        obtain ⟨e1, e2, e3⟩ := svd_apply_spec ht hrs h.wide (hs k rfl) hap
        have hty : s.mat.ty = tm.ty := by
          unfold TMat.mul at e1
          split at e1
          · assumption
          · cases e1
        have hnc : tm.nc = r0.nc := by
          unfold TMat.mul at e1
          rw [if_pos hty, if_pos e3.symm] at e1
          rw [(TMat.wrap_eq_ok e1).1]
          rfl
        refine ⟨?_, e2, ?_⟩
        · simp only [Op.project, DimRedT.isNmf]
          rw [resolve_to_first, hty, TMat.toType_self]
          simp [e1, TMat.toDense]
        · intro ty
          refine ⟨⟨_, TMat.toType_ok ty (fun _ => ⟨by rw [e3]; exact h.wide, by rw [hnc]; exact e2⟩)⟩, e3.symm, ?_⟩
          intro _
          rw [hnc]; exact e2
    | featsel k c =>
      obtain ⟨sel, htf, rfl⟩ := opApply_featsel hop
      obtain ⟨hbest, hget, rfl⟩ := topFeatureSelection_ok htf
      simp only at h7
      subst h7
      have hlen : sel.length = min k s.mat.nc := hbest.count
      have hk : 0 < k := ht
      have hw := h.wide
      refine ⟨hget, by show 0 < sel.length; rw [hlen]; omega, ?_⟩
      intro ty
      exact ⟨hbest.inRange, fun _ => by rw [hlen]; omega⟩
  obtain ⟨m1, m2, m3⟩ := main
  have hout := (op'.models_project.eq_ok hrs m1).2
  refine ⟨?_, ?_, by rw [h2]; exact m2, ?_, ?_⟩
  · rw [h1, projAll_append, h.proj, ok_bind, m1, h2]
  · rw [h2, hout]; exact h.rows
  · intro ty
    rw [h1, (opsMap_append _ _ _ _).2.2]
    exact ⟨h.okAll ty, by rw [h.width]; exact m3 _⟩
  · rw [h1, (opsMap_append _ _ .dense _).2.1, h.width, h2, hout]
    rfl

theorem reproduces_applyAll {env : Env} {raw : Space κ} (hops : raw.ops = []) (hr : 0 < raw.mat.nr)
    (hc : 0 < raw.mat.nc) {ts : List Trans} (hts : ∀ t ∈ ts, t.Exact) {core : Space κ}
    (hsvd : ∀ pre k post s, ts = pre ++ .dimred (.svd k) :: post → raw.applyAll env pre = .ok s →
      SvdCallOk env s.mat k)
    (h : raw.applyAll env ts = .ok core) : Reproduces raw core := by
  induction ts using List.reverseRecOn generalizing core with
  | nil =>
    obtain rfl := ok_inj h
    refine ⟨?_, rfl, hc, ?_, ?_⟩ <;> rw [hops]
    · rfl
    · intro ty; trivial
    · rfl
  | append_singleton ts t ih =>
    rw [applyAll_append, bind_eq_ok] at h
    obtain ⟨s, h1, h2⟩ := h
    have hR := ih (fun x hx => hts x (List.mem_append_left _ hx))
      (fun pre k post s' he hp => hsvd pre k (post ++ [t]) s' (by rw [he]; simp) hp) h1
    refine hR.step hr (hts t (by simp)) ?_ h2
    intro k hk
    exact hsvd ts k [] s (by rw [hk]) h1

/-- **C24** Let `core` come from a raw space by any sequence of scalings, feature selections and SVD reductions whose
SVD calls return singular triples. Building a peripheral space on `core` from any non-empty selection `ks` of raw
rows (repetitions allowed, given as a dense or a sparse matrix) gives exactly the rows `ks` of the core matrix. -/
theorem C24_core_rows_reproduced (env : Env) (raw core : Space κ) (ts : List Trans) (hwf : raw.WF)
    (hops : raw.ops = []) (hr : 0 < raw.mat.nr) (hc : 0 < raw.mat.nc) (hts : ∀ t ∈ ts, t.Exact)
    (hsvd : ∀ pre k post s, ts = pre ++ .dimred (.svd k) :: post → raw.applyAll env pre = .ok s →
      SvdCallOk env s.mat k)
    (hcore : raw.applyAll env ts = .ok core) (ty : MTy) (ks : List ℕ) (hne : ks ≠ []) (hk : ∀ k ∈ ks, k < raw.mat.nr)
    (ws : List κ) (hws : ws.Nodup) (hlen : ws.length = ks.length) :
    ∃ p, Periph.new core ⟨ty, raw.mat.val.selRows ks⟩ ws none = .ok p ∧ p.id2row = ws ∧
      p.mat.nr = ks.length ∧ p.mat.nc = core.mat.nc ∧
      (∀ (i k : ℕ), ks[i]? = some k → ∀ j, p.mat.val.get i j = core.mat.val.get k j) ∧
      (ty = raw.mat.ty → p.mat.ty = core.mat.ty) ∧ p.id2col = core.id2col ∧ p.ops = core.ops := by
  have hR := reproduces_applyAll hops hr hc hts hsvd hcore
  have hM := models_projAll core.ops
  obtain ⟨hg, hout⟩ := hM.eq_ok hr hR.proj
  set m : TMat ℝ := ⟨ty, raw.mat.val.selRows ks⟩ with hm
  have hmr : 0 < m.nr := List.length_pos_iff.2 hne
  have hgood : (opsMap core.ops).Good m := by
    have := (RowMap.good_selRows _ raw.mat ks hk hg).2
    exact ⟨hR.okAll ty, this⟩
  have hproj := (hM m hmr).1 hgood
  have hval : ((opsMap core.ops).out m).val = core.mat.val.selRows ks := by
    have := congrArg TMat.val (RowMap.out_selRows (opsMap core.ops) raw.mat ks hk)
    rw [← hout] at this
    exact this
  have hcols := (applyAll_cols hops hcore).self
  have hcwf := (applyAll_rows hcore).2.2 hwf
  obtain ⟨r, hrd⟩ := Space.resolveMap_none hws
  have hnc : ((opsMap core.ops).out m).nc = core.mat.nc := by simp only [TMat.nc, hval]; rfl
  have hcheck : Space.shapeCheck ((opsMap core.ops).out m) ws core.id2col r core.col2id = .ok () := by
    rw [Space.shapeCheck_ok_iff (Space.resolveMap_eq_ok hrd).1 hcwf.cols]
    exact ⟨hlen.symm, fun hne => by rw [hnc]; exact hcwf.ncols hne⟩
  refine ⟨_, periphNew_ok hproj hcols hrd hcheck, rfl, rfl, hnc, ?_, ?_, rfl, rfl⟩
  · intro i k hik j
    show ((opsMap core.ops).out m).val.get i j = _
    rw [hval, Mat.selRows_get_some hik]
  · intro ht
    show (opsMap core.ops).ty ty = _
    rw [ht, hout]
    rfl

/-! ## C26 -/

/-- What the numerical routines promise about shapes: numpy's and sparsesvd's factors have matching inner dimensions,
a pseudo-inverse has the transposed shape. -/
structure Env.Shapes (env : Env) : Prop where
  svd : ∀ A u s vt, env.npSvd A = .ok (u, s, vt) → u.nc = s.length ∧ vt.nr = s.length
  sparse : ∀ A k ut s vt, env.sparseSvd A k = .ok (ut, s, vt) → ut.nr = s.length ∧ vt.nr = s.length
  pinv : ∀ A P, env.npPinv A = .ok P → P.nc = A.nr

theorem signFix_nc {u v u' v' : TMat ℝ} (h : signFix u v = .ok (u', v')) :
    u'.nc = u.nc ∧ v'.nc = v.nc ∧ u'.nr = u.nr ∧ v'.nr = v.nr := by
  unfold signFix at h
  split at h
  · have := ok_inj h
    simp only [Prod.mk.injEq] at this
    obtain ⟨rfl, rfl⟩ := this
    exact ⟨rfl, rfl, rfl, rfl⟩
  · simp only [bind_eq_ok, pure_eq_ok] at h
    obtain ⟨a, ha, b, hb, h⟩ := h
    have := ok_inj h
    simp only [Prod.mk.injEq] at this
    obtain ⟨rfl, rfl⟩ := this
    rw [(TMat.wrap_eq_ok ha).1, (TMat.wrap_eq_ok hb).1]
    exact ⟨rfl, rfl, rfl, rfl⟩

theorem scaleCols_shape {t r : TMat ℝ} {a : Arr ℝ} (h : t.scaleCols a = .ok r) : r.nc = t.nc ∧ r.nr = t.nr := by
  unfold TMat.scaleCols at h
  split at h
  · split at h
    · rw [(TMat.wrap_eq_ok h).1]; exact ⟨rfl, rfl⟩
    · cases h
  · split at h
    · rw [(TMat.wrap_eq_ok h).1]; exact ⟨rfl, rfl⟩
    · cases h

theorem svd_width {env : Env} (he : env.Shapes) {m r tm : TMat ℝ} {k : ℕ}
    (h : (DimRedT.svd k).apply env m = .ok (r, tm)) : tm.nc = r.nc := by
  simp only [DimRedT.apply, Dissect.svd, bind_eq_ok, pure_eq_ok] at h
  obtain ⟨⟨u, s, v⟩, h1, us, hus, h⟩ := h
  have := ok_inj h
  simp only [Prod.mk.injEq] at this
  obtain ⟨rfl, rfl⟩ := this
  rw [(scaleCols_shape hus).1]
  split at h1
  · cases h1
  · cases hty : m.ty with
    | dense =>
      rw [hty] at h1
      simp only [denseSvd, bind_eq_ok, pure_eq_ok] at h1
      obtain ⟨⟨u0, s0, vt0⟩, he0, u', hu, v', hv, ⟨u2, v2⟩, hs, h1⟩ := h1
      have := ok_inj h1
      simp only [Prod.mk.injEq] at this
      obtain ⟨rfl, _, rfl⟩ := this
      obtain ⟨a1, a2, _, _⟩ := signFix_nc hs
      rw [a1, a2, (TMat.ofNumpy_eq_ok hu).1, (TMat.ofNumpy_eq_ok hv).1]
      obtain ⟨b1, b2⟩ := he.svd m.val _ _ _ he0
      have hle : ∀ n, min (min u0.nc k) n ≤ u0.nc := fun n => by omega
      simp only [TMat.nc, Mat.transpose_nc]
      rw [Mat.takeCols_nc (hle _), Mat.takeRows_nr (by rw [b2, ← b1]; exact hle _)]
    | sparse =>
      rw [hty] at h1
      simp only [sparseSvd, bind_eq_ok, pure_eq_ok] at h1
      obtain ⟨⟨u0, s0, vt0⟩, he0, u', hu, v', hv, u3, hu3, v3, hv3, ⟨u2, v2⟩, hs, h1⟩ := h1
      have := ok_inj h1
      simp only [Prod.mk.injEq] at this
      obtain ⟨rfl, _, rfl⟩ := this
      obtain ⟨a1, a2, _, _⟩ := signFix_nc hs
      rw [a1, a2, (TMat.wrap_eq_ok hu3).1, (TMat.wrap_eq_ok hv3).1]
      obtain ⟨b1, b2⟩ := he.sparse m.val (k + k / 10) _ _ _ he0
      have e1 : u'.nc = s0.length := by
        rw [(TMat.ofNumpy_eq_ok hu).1]; exact b1
      have e2 : v'.nc = s0.length := by
        rw [(TMat.ofNumpy_eq_ok hv).1]; exact b2
      have hle : min u'.nc k ≤ u'.nc := by omega
      simp only [TMat.nc] at e1 e2 hle ⊢
      rw [Mat.takeCols_nc hle, Mat.takeCols_nc (by rw [e2, ← e1]; exact hle)]

theorem nmf_width {env : Env} (he : env.Shapes) {m r tm : TMat ℝ} {k : ℕ} {ch : Chance} (hch : ch.Valid m)
    (h : (DimRedT.nmf k ch).apply env m = .ok (r, tm)) : tm.nc = r.nc := by
  simp only [DimRedT.apply, bind_eq_ok, pure_eq_ok] at h
  obtain ⟨_, hpos, ⟨w0, h0⟩, hinit, ⟨w, h'⟩, hnmf, p, hp, h⟩ := h
  have := ok_inj h
  simp only [Prod.mk.injEq] at this
  obtain ⟨rfl, rfl⟩ := this
  have hnn : NonNegative m.val := fun i j hi hj => (assertPositive_rows m).1.1 hpos i hi j hj
  have hinit' := hinit
  simp only [vColInit, bind_eq_ok, pure_eq_ok] at hinit'
  obtain ⟨es, _, a, ha, b, hb, _⟩ := hinit'
  obtain ⟨_, a1, a2⟩ := TMat.ofNumpy_eq_ok ha
  obtain ⟨_, b1, b2⟩ := TMat.ofNumpy_eq_ok hb
  obtain ⟨w1, h1, w2, h2, e1, e2, _, _, e3, _, e4, _⟩ := C22_factors env m k ch hnn a1 b2 a2 hch
  rw [hinit] at e1
  have := ok_inj e1
  simp only [Prod.mk.injEq] at this
  obtain ⟨rfl, rfl⟩ := this
  rw [hnmf] at e2
  have := ok_inj e2
  simp only [Prod.mk.injEq] at this
  obtain ⟨rfl, rfl⟩ := this
  simp only [pinv, bind_eq_ok] at hp
  obtain ⟨P, hP, hp⟩ := hp
  rw [(TMat.ofNumpy_eq_ok hp).1, e3]
  exact (he.pinv _ _ hP).trans e4

/-- The width reached by projecting a row of raw width, along a sequence of transformations. -/
theorem width_applyAll {env : Env} (he : env.Shapes) {raw : Space κ} (hops : raw.ops = []) (hwf : raw.WF)
    (hr : 0 < raw.mat.nr) {ts : List Trans} {core : Space κ}
    (hnmf : ∀ pre k ch post s, ts = pre ++ .dimred (.nmf k ch) :: post → raw.applyAll env pre = .ok s →
      ch.Valid s.mat)
    (h : raw.applyAll env ts = .ok core) : (opsMap core.ops).width raw.mat.nc = core.mat.nc := by
  induction ts using List.reverseRecOn generalizing core with
  | nil =>
    obtain rfl := ok_inj h
    rw [hops]; rfl
  | append_singleton ts t ih =>
    rw [applyAll_append, bind_eq_ok] at h
    obtain ⟨s, h1, h2⟩ := h
    have hw := ih (fun pre k ch post s' he hp => hnmf pre k ch (post ++ [t]) s' (by rw [he]; simp) hp) h1
    have hrs : 0 < s.mat.nr := by
      obtain ⟨e1, _, e3⟩ := applyAll_rows h1
      rw [(e3 hwf).nrows, e1, ← hwf.nrows]; exact hr
    obtain ⟨op, m, hop, op', h3, h4, _, _, _, _, h7, _⟩ := apply_eq_ok h2
    rw [h3, (opsMap_append _ _ .dense _).2.1, hw, h4]
    cases t with
    | scaling st =>
      obtain ⟨rfl, hst⟩ := opApply_scaling hop
      simp only at h7
      subst h7
      rw [(applyT_shape hrs hst).2.2]
      cases st <;> rfl
    | dimred dt =>
      obtain ⟨r0, tm, hap, rfl, rfl⟩ := opApply_dimred hop
      simp only at h7
      subst h7
      show tm.nc = r0.nc
      cases dt with
      | svd k => exact svd_width he hap
      | nmf k ch => exact nmf_width he (hnmf ts k ch [] s rfl h1) hap
    | featsel k c =>
      obtain ⟨sel, htf, rfl⟩ := opApply_featsel hop
      obtain ⟨_, _, rfl⟩ := topFeatureSelection_ok htf
      simp only at h7
      subst h7
      rfl

/-- **C26** A peripheral space built on a core space that comes from a raw space by any sequence of transformations
has the column labels, the operations and (for rows of raw width) the number of columns of the core. -/
theorem C26_columns_of_core (env : Env) (raw core p : Space κ) (ts : List Trans) (hwf : raw.WF) (hops : raw.ops = [])
    (hcore : raw.applyAll env ts = .ok core) (m : TMat ℝ) (ws : List κ) (d : Option (Dict κ ℤ))
    (hp : Periph.new core m ws d = .ok p) :
    p.id2col = core.id2col ∧ p.col2id = core.col2id ∧ p.ops = core.ops ∧ p.id2row = ws ∧ p.elemShape = [p.mat.nc] ∧
    p.WF ∧
    (env.Shapes → 0 < raw.mat.nr → 0 < m.nr → m.nc = raw.mat.nc →
      (∀ pre k ch post s, ts = pre ++ .dimred (.nmf k ch) :: post → raw.applyAll env pre = .ok s → ch.Valid s.mat) →
      p.mat.nc = core.mat.nc) := by
  obtain ⟨h1, h2, h3, h4, h5, h6, h7⟩ := periphNew_eq_ok hp
  rw [(applyAll_cols hops hcore).self] at h2
  have := ok_inj h2
  simp only [Prod.mk.injEq] at this
  obtain ⟨c1, c2⟩ := this
  have hrows := (Space.resolveMap_eq_ok h6).1
  have hcols := ((applyAll_rows hcore).2.2 hwf).cols
  rw [c1, c2] at hcols
  have hrows' : Labels p.id2row p.row2id := by rw [h3]; exact hrows
  obtain ⟨n1, n2⟩ := (Space.shapeCheck_ok_iff hrows' hcols).1 h7
  refine ⟨c1.symm, c2.symm, h4, h3, h5, ⟨hrows', hcols, n1, n2, by rw [h5]; simp⟩, ?_⟩
  intro he hr hm hmn hnmf
  have hout := ((models_projAll core.ops).eq_ok hm h1).2
  rw [hout]
  show (opsMap core.ops).width m.nc = _
  rw [hmn]
  exact width_applyAll he hops hwf hr hnmf hcore

end Dissect
