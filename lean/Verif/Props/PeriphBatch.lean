import Verif.Props.Peripheral

/-! # C25: batches of peripheral rows -/

namespace Dissect
open Finset
variable {κ : Type} [DecidableEq κ]

theorem list2dictAux_append (a b : List κ) : ∀ (d : Dict κ ℤ) (n : ℕ),
    list2dictAux d n (a ++ b) = list2dictAux d n a >>= fun d' => list2dictAux d' (n + a.length) b := by
  induction a with
  | nil => intro d n; rfl
  | cons w a ih =>
    intro d n
    simp only [List.cons_append, list2dictAux]
    split
    · rfl
    · rw [ih]
      congr 1
      funext d'
      rw [List.length_cons]
      congr 1
      omega

theorem list2dict_append_iff (a b : List κ) (d : Dict κ ℤ) :
    list2dict (a ++ b) = .ok d ↔ ∃ d1, list2dict a = .ok d1 ∧ addItemsToDict d1 b = (d, .ok ()) := by
  unfold list2dict
  rw [list2dictAux_append, bind_eq_ok]
  constructor
  · rintro ⟨d1, h1, h2⟩
    refine ⟨d1, h1, ?_⟩
    have hl : d1.len = a.length := (list2dict_ok (l := a) (d := d1) h1).2.1
    unfold addItemsToDict
    apply (addItemsAux_eq d1.len b d1 0).1
    rw [hl, Nat.add_zero, ← Nat.zero_add a.length]
    exact h2
  · rintro ⟨d1, h1, h2⟩
    refine ⟨d1, h1, ?_⟩
    have hl : d1.len = a.length := (list2dict_ok (l := a) (d := d1) h1).2.1
    have := (addItemsAux_eq d1.len b d1 0).2.1 d h2
    rw [hl, Nat.add_zero, ← Nat.zero_add a.length] at this
    exact this

/-- When `add_rows` succeeds, and with which result. -/
theorem addRows_ok_iff {p p' : Space κ} {m : TMat ℝ} {ws : List κ} (hfix : ColsFixed p.ops p.id2col p.col2id) :
    Periph.addRows p m ws = (p', .ok ()) ↔ ∃ d m' mm, addItemsToDict p.row2id ws = (d, .ok ()) ∧ m.nr = ws.length ∧
      projAll p.ops m = .ok m' ∧ p.mat.vstack m' = .ok mm ∧
      Space.shapeCheck mm (p.id2row ++ ws) p.id2col d p.col2id = .ok () ∧
      p' = { p with row2id := d, id2row := p.id2row ++ ws, mat := mm } := by
  unfold Periph.addRows
  rcases hd : addItemsToDict p.row2id ws with ⟨d, out⟩
  cases out with
  | error e =>
    simp only [Prod.mk.injEq, reduceCtorEq, and_false, false_iff]
    rintro ⟨d', _, _, ⟨_, ⟨⟩⟩, _⟩
  | ok u =>
    simp only
    by_cases hn : m.nr = ws.length
    · rw [if_neg (by simpa using hn)]
      rcases hpo : Periph.projectOps p.id2col p.col2id m p.ops with ⟨⟨c, cd⟩, out⟩
      have hsp := projectOps_spec p.ops p.id2col p.col2id m
      rw [hpo] at hsp
      simp only
      cases out with
      | error e =>
        simp only [Prod.mk.injEq, reduceCtorEq, and_false, false_iff]
        rintro ⟨d', m', mm, _, _, hm', _⟩
        have := hsp.2 m' _ hm' hfix.self
        simp at this
      | ok m' =>
        obtain ⟨e1, e2⟩ := hsp.1 m' rfl
        rw [hfix.self] at e2
        have e2' := ok_inj e2
        simp only [Prod.mk.injEq] at e2'
        obtain ⟨rfl, rfl⟩ := e2'
        simp only
        cases hv : p.mat.vstack m' with
        | error e =>
          simp only [Prod.mk.injEq, reduceCtorEq, and_false, false_iff]
          rintro ⟨d', m2, mm, _, _, hm', hvv, _⟩
          rw [e1] at hm'
          obtain rfl := ok_inj hm'
          rw [hv] at hvv
          cases hvv
        | ok mm =>
          simp only [Prod.mk.injEq]
          constructor
          · rintro ⟨rfl, hs⟩
            exact ⟨d, m', mm, ⟨rfl, trivial⟩, hn, e1, hv, hs, rfl⟩
          · rintro ⟨d', m2, mm2, ⟨rfl, _⟩, _, hm', hvv, hs, rfl⟩
            rw [e1] at hm'
            obtain rfl := ok_inj hm'
            rw [hv] at hvv
            obtain rfl := ok_inj hvv
            exact ⟨rfl, hs⟩
    · rw [if_pos (by simpa using hn)]
      simp only [Prod.mk.injEq, reduceCtorEq, and_false, false_iff]
      rintro ⟨_, _, _, _, h, _⟩
      exact hn h

/-- Exactly when a peripheral space can be built without a given dictionary. -/
theorem periphNew_ok_iff {core p : Space κ} {m : TMat ℝ} {ws : List κ}
    (hfix : ColsFixed core.ops core.id2col core.col2id) (hcols : Labels core.id2col core.col2id) (hm : 0 < m.nr) :
    Periph.new core m ws none = .ok p ↔ (opsMap core.ops).Good m ∧ m.nr = ws.length ∧
      (core.id2col ≠ [] → (opsMap core.ops).width m.nc = core.id2col.length) ∧
      ∃ d, list2dict ws = .ok d ∧ p = ⟨(opsMap core.ops).out m, ws, core.id2col, d, core.col2id, core.ops,
        [((opsMap core.ops).out m).nc]⟩ := by
  have hM := models_projAll core.ops
  constructor
  · intro h
    obtain ⟨h1, h2, h3, h4, h5, h6, h7⟩ := periphNew_eq_ok h
    obtain ⟨hg, hout⟩ := hM.eq_ok hm h1
    rw [hfix.self] at h2
    have := ok_inj h2
    simp only [Prod.mk.injEq] at this
    obtain ⟨c1, c2⟩ := this
    have hl := (Space.resolveMap_eq_ok h6).1
    rw [h3, ← c1, ← c2, Space.shapeCheck_ok_iff hl hcols, hout] at h7
    refine ⟨hg, h7.1, h7.2, p.row2id, h6, ?_⟩
    cases p
    simp only at hout h3 c1 c2 h4 h5
    simp only [Space.mk.injEq]
    refine ⟨hout, h3, c1.symm, trivial, c2.symm, h4, ?_⟩
    rw [h5, hout]
  · rintro ⟨hg, hn, hw, d, hd, rfl⟩
    refine periphNew_ok ((hM m hm).1 hg) hfix.self (show Space.resolveMap ws none = .ok d from hd) ?_
    rw [Space.shapeCheck_ok_iff (list2dict_ok hd).1 hcols]
    exact ⟨hn, hw⟩

/-- One batch: adding rows to a peripheral space is building it from the stacked rows. -/
theorem periph_add_step {core p p' : Space κ} {a b : TMat ℝ} {wa wb : List κ}
    (hfix : ColsFixed core.ops core.id2col core.col2id) (hcols : Labels core.id2col core.col2id)
    (ha : 0 < a.nr) (hb : 0 < b.nr) (hty : b.ty = a.ty) (hnc : b.nc = a.nc)
    (hwidth : 0 < (opsMap core.ops).width a.nc) (hp : Periph.new core a wa none = .ok p) (hlb : b.nr = wb.length) :
    Periph.addRows p b wb = (p', .ok ()) ↔
      Periph.new core ⟨a.ty, a.val.vstack b.val⟩ (wa ++ wb) none = .ok p' := by
  obtain ⟨hg, hna, hw, d, hd, hpeq⟩ := (periphNew_ok_iff hfix hcols ha).1 hp
  have hab : 0 < (⟨a.ty, a.val.vstack b.val⟩ : TMat ℝ).nr := by
    show 0 < a.val.nr + b.val.nr
    simp only [TMat.nr] at ha; omega
  have hR := models_projAll core.ops (κ := κ)
  set R := opsMap core.ops with hRdef
  rw [periphNew_ok_iff hfix hcols hab, addRows_ok_iff (by rw [hpeq]; exact hfix)]
  subst hpeq
  have hgv : R.Good ⟨a.ty, a.val.vstack b.val⟩ ↔ R.Good b := by
    rw [RowMap.good_vstack R a b hnc.symm hty.symm ha]
    constructor
    · rintro ⟨h1, h2⟩
      exact ⟨by rw [hty, hnc]; exact h1.1, h2⟩
    · rintro ⟨h1, h2⟩
      exact ⟨hg, h2⟩
  have hvs : (R.out a).vstack (R.out b) = TMat.wrap (R.out a).ty ((R.out a).val.vstack (R.out b).val) := by
    unfold TMat.vstack
    rw [if_pos (by show R.ty a.ty = R.ty b.ty; rw [hty]), if_pos (by show R.width a.nc = R.width b.nc; rw [hnc])]
  have hov := RowMap.out_vstack R a b hnc.symm
  rw [hgv]
  constructor
  · rintro ⟨d', m', mm, h1, h2, h3, h4, h5, rfl⟩
    obtain ⟨hgb, rfl⟩ := hR.eq_ok hb h3
    simp only at h4
    rw [hvs] at h4
    obtain ⟨h4, _⟩ := TMat.wrap_eq_ok h4
    rw [← hov] at h4
    subst h4
    refine ⟨hgb, ?_, ?_, d', (list2dict_append_iff _ _ _).2 ⟨d, hd, h1⟩, ?_⟩
    · show a.val.nr + b.val.nr = _
      rw [List.length_append, ← h2, ← hna]
    · exact hw
    · simp only [Space.mk.injEq, true_and]
      exact ⟨rfl, rfl⟩
  · rintro ⟨hgb, h2, h3, d', h4, rfl⟩
    obtain ⟨d1, e1, e2⟩ := (list2dict_append_iff _ _ _).1 h4
    rw [hd] at e1
    obtain rfl := ok_inj e1
    refine ⟨d', R.out b, R.out ⟨a.ty, a.val.vstack b.val⟩, e2, hlb, (hR b hb).1 hgb, ?_, ?_, ?_⟩
    · rw [hvs, hov]
      refine TMat.wrap_ok (fun _ => ⟨?_, hwidth⟩)
      show 0 < a.val.nr + b.val.nr
      exact Nat.add_pos_left ha _
    · rw [Space.shapeCheck_ok_iff (list2dict_ok h4).1 hcols]
      exact ⟨h2, h3⟩
    · simp only [Space.mk.injEq, true_and]
      exact ⟨rfl, rfl⟩

/-- All rows of the first matrix followed by the rows of the later batches. -/
def stackRows (m : TMat ℝ) (bs : List (TMat ℝ × List κ)) : TMat ℝ :=
  bs.foldl (fun acc b => ⟨acc.ty, acc.val.vstack b.1.val⟩) m

/-- All labels, in order. -/
def stackLabels (ws : List κ) (bs : List (TMat ℝ × List κ)) : List κ := ws ++ bs.flatMap (fun b => b.2)

/-- If the first rows are refused, so are all rows together. -/
theorem periphNew_prefix {core p : Space κ} {a b : TMat ℝ} {wa wb : List κ}
    (hfix : ColsFixed core.ops core.id2col core.col2id) (hcols : Labels core.id2col core.col2id)
    (ha : 0 < a.nr) (hty : b.ty = a.ty) (hnc : b.nc = a.nc) (hla : a.nr = wa.length)
    (hp : Periph.new core ⟨a.ty, a.val.vstack b.val⟩ (wa ++ wb) none = .ok p) :
    ∃ q, Periph.new core a wa none = .ok q := by
  have hab : 0 < (⟨a.ty, a.val.vstack b.val⟩ : TMat ℝ).nr := Nat.add_pos_left ha _
  obtain ⟨hg, _, hw, d, hd, _⟩ := (periphNew_ok_iff hfix hcols hab).1 hp
  obtain ⟨d1, hd1, _⟩ := (list2dict_append_iff _ _ _).1 hd
  exact ⟨_, (periphNew_ok_iff hfix hcols ha).2
    ⟨((RowMap.good_vstack _ a b hnc.symm hty.symm ha).1 hg).1, hla, hw, d1, hd1, rfl⟩⟩

theorem batches_iff {core : Space κ} (hfix : ColsFixed core.ops core.id2col core.col2id)
    (hcols : Labels core.id2col core.col2id) (bs : List (TMat ℝ × List κ)) : ∀ (a : TMat ℝ) (wa : List κ) (p : Space κ),
    0 < a.nr → a.nr = wa.length → 0 < (opsMap core.ops).width a.nc →
    (∀ b ∈ bs, 0 < b.1.nr ∧ b.1.nr = b.2.length ∧ b.1.ty = a.ty ∧ b.1.nc = a.nc) →
    ((∃ q, Periph.new core a wa none = .ok q ∧ Periph.addBatches q bs = .ok p) ↔
      Periph.new core (stackRows a bs) (stackLabels wa bs) none = .ok p) := by
  induction bs with
  | nil =>
    intro a wa p _ _ _ _
    simp only [Periph.addBatches, stackRows, stackLabels, List.foldl_nil, List.flatMap_nil, List.append_nil]
    constructor
    · rintro ⟨q, h1, h2⟩
      rw [h1, ok_inj h2]
    · intro h
      exact ⟨p, h, rfl⟩
  | cons b bs ih =>
    intro a wa p ha hla hw hbs
    obtain ⟨b1, b2, b3, b4⟩ := hbs b List.mem_cons_self
    have hih := ih ⟨a.ty, a.val.vstack b.1.val⟩ (wa ++ b.2) p (Nat.add_pos_left ha _)
      (by show a.nr + b.1.nr = _; rw [List.length_append, ← b2, ← hla]) hw
      (fun c hc => hbs c (List.mem_cons_of_mem _ hc))
    have hs1 : stackRows a (b :: bs) = stackRows ⟨a.ty, a.val.vstack b.1.val⟩ bs := rfl
    have hs2 : stackLabels wa (b :: bs) = stackLabels (wa ++ b.2) bs := by
      simp [stackLabels]
    rw [hs1, hs2, ← hih]
    obtain ⟨bm, bw⟩ := b
    constructor
    · rintro ⟨q, h1, h2⟩
      simp only [Periph.addBatches] at h2
      rcases hadd : Periph.addRows q bm bw with ⟨q', out⟩
      rw [hadd] at h2
      cases out with
      | error e => simp at h2
      | ok u =>
        exact ⟨q', (periph_add_step hfix hcols ha b1 b3 b4 hw h1 b2).1 hadd, h2⟩
    · rintro ⟨q', h1, h2⟩
      obtain ⟨q, hq⟩ := periphNew_prefix hfix hcols ha b3 b4 hla h1
      refine ⟨q, hq, ?_⟩
      have := (periph_add_step hfix hcols ha b1 b3 b4 hw hq b2).2 h1
      simp only [Periph.addBatches, this]
      exact h2

/-- **C25** For a core space obtained from a raw space by any sequence of transformations, and any way of cutting a
list of peripheral rows (of raw width, all dense or all sparse) into non-empty batches: building the space from the
first batch and adding the others one by one yields a space if and only if building it from all rows at once does, and
then it is the same space. -/
theorem C25_batches (env : Env) (raw core : Space κ) (ts : List Trans) (hwf : raw.WF) (hops : raw.ops = [])
    (hcore : raw.applyAll env ts = .ok core) (he : env.Shapes) (hr : 0 < raw.mat.nr) (hc : 0 < core.mat.nc)
    (hnmf : ∀ pre k ch post s, ts = pre ++ .dimred (.nmf k ch) :: post → raw.applyAll env pre = .ok s → ch.Valid s.mat)
    (m : TMat ℝ) (ws : List κ) (bs : List (TMat ℝ × List κ)) (hm : 0 < m.nr) (hmw : m.nr = ws.length)
    (hmc : m.nc = raw.mat.nc)
    (hbs : ∀ b ∈ bs, 0 < b.1.nr ∧ b.1.nr = b.2.length ∧ b.1.ty = m.ty ∧ b.1.nc = m.nc) (p : Space κ) :
    (∃ q, Periph.new core m ws none = .ok q ∧ Periph.addBatches q bs = .ok p) ↔
      Periph.new core (stackRows m bs) (stackLabels ws bs) none = .ok p :=
  batches_iff (applyAll_cols hops hcore) ((applyAll_rows hcore).2.2 hwf).cols bs m ws p hm hmw
    (by rw [hmc, width_applyAll he hops hwf hr hnmf hcore]; exact hc) hbs

/-- What `stackRows` is, entry by entry, for one more batch. -/
theorem C25_stackRows_last (m : TMat ℝ) (bs : List (TMat ℝ × List κ)) (b : TMat ℝ × List κ)
    (hbs : ∀ c ∈ bs, c.1.nc = m.nc) (hb : b.1.nc = m.nc) :
    (stackRows m (bs ++ [b])).nr = (stackRows m bs).nr + b.1.nr ∧ (stackRows m bs).nc = m.nc ∧
    ∀ i j, (stackRows m (bs ++ [b])).val.get i j =
      if i < (stackRows m bs).nr then (stackRows m bs).val.get i j else b.1.val.get (i - (stackRows m bs).nr) j := by
  have hnc : ∀ (l : List (TMat ℝ × List κ)) (a : TMat ℝ), (stackRows a l).nc = a.nc := by
    intro l
    induction l with
    | nil => intro a; rfl
    | cons c l ih => intro a; exact ih _
  have hs : stackRows m (bs ++ [b]) = ⟨(stackRows m bs).ty, (stackRows m bs).val.vstack b.1.val⟩ := by
    simp [stackRows, List.foldl_append]
  rw [hs]
  refine ⟨rfl, hnc bs m, fun i j => ?_⟩
  exact Mat.vstack_get ((hnc bs m).trans hb.symm) i j

/-- Non-vacuity for C24, C25, C26: a space over `diag(3, 2)` reduced by SVD meets all hypotheses, and rows to project
exist. -/
theorem ex_svd_core : ∃ (raw core : Space String) (ts : List Trans), raw.WF ∧ raw.ops = [] ∧ 0 < raw.mat.nr ∧ 0 < raw.mat.nc ∧
    ts = [.dimred (.svd 2)] ∧ (∀ t ∈ ts, t.Exact) ∧ raw.applyAll exEnv ts = .ok core ∧ 0 < core.mat.nc ∧
    exEnv.Shapes ∧
    (∀ pre k post s, ts = pre ++ .dimred (.svd k) :: post → raw.applyAll exEnv pre = .ok s →
      SvdCallOk exEnv s.mat k) ∧
    (∀ pre k ch post s, ts = pre ++ .dimred (.nmf k ch) :: post → raw.applyAll exEnv pre = .ok s → ch.Valid s.mat) := by
  obtain ⟨raw, hs⟩ := (C01_accepts_iff (⟨.dense, exDiag⟩ : TMat ℝ) ["dog", "cat"] ([] : List String) none none [] none).2
    ⟨by simp, by simp, by simp, by simp, rfl, by simp, by simp⟩
  obtain ⟨h0, h1, h2, h3, h4, h5, _⟩ := C01_result _ _ _ _ _ _ _ raw hs
  have hcall : SvdCallOk exEnv raw.mat 2 := by rw [h1]; exact ex_svdCall _
  obtain ⟨red, V, ha, e1, e2, e3, _⟩ := C21_dense exEnv raw.mat 2 exOne [3, 2] exOne (by rw [h1])
    (by rw [h1]; simp [TMat.nr, exDiag]) (by rw [h1]; simp [TMat.nc, exDiag]) (by norm_num) rfl
    (by rw [h1]; exact ex_isSvd) ⟨3, by simp, by norm_num [svdTol]⟩
  have hap : ∃ core, raw.apply exEnv (.dimred (.svd 2)) = .ok core ∧ core.mat = ⟨.dense, red.val⟩ := by
    unfold Space.apply
    simp only [Trans.createOp, Op.apply, ha, ok_bind, pure_eq_ok, TMat.toDense, Space.assert1dim, h5]
    rw [if_neg (by simp), ok_bind]
    refine ⟨_, Space.new_ok (Space.resolveMap_some h0.rows) (Space.resolveMap_some Labels.empty) ?_ (by simp) (by simp),
      rfl⟩
    rw [← h0.nrows]
    exact e1
  obtain ⟨core, hc, hm⟩ := hap
  refine ⟨raw, core, [.dimred (.svd 2)], h0, h4, by rw [h1]; simp [TMat.nr, exDiag], by rw [h1]; simp [TMat.nc, exDiag],
    rfl, by simp [Trans.Exact], by simp [Space.applyAll, hc], by rw [hm]; exact e3,
    ⟨fun _ u s vt h => by
      have h' := ok_inj (show (.ok (exOne, [3, 2], exOne) : Py _) = .ok (u, s, vt) from h)
      simp only [Prod.mk.injEq] at h'
      obtain ⟨rfl, rfl, rfl⟩ := h'
      exact ⟨rfl, rfl⟩, fun _ _ u s vt h => by
      have h' := ok_inj (show (.ok (exOne, [3, 2], exOne) : Py _) = .ok (u, s, vt) from h)
      simp only [Prod.mk.injEq] at h'
      obtain ⟨rfl, rfl, rfl⟩ := h'
      exact ⟨rfl, rfl⟩, fun A P h => by rw [← ok_inj h]; rfl⟩, ?_, ?_⟩
  · intro pre k post s he hp
    cases pre with
    | nil =>
      simp only [List.nil_append, List.cons.injEq, Trans.dimred.injEq, DimRedT.svd.injEq] at he
      obtain rfl := ok_inj hp
      rw [← he.1]
      exact hcall
    | cons t pre => simp at he
  · intro pre k ch post s he hp
    cases pre with
    | nil => simp at he
    | cons t pre => simp at he

end Dissect
