import Verif.Props.ComposeMore
import Verif.Props.PeriphSvd
import Verif.Props.Twice

/-! # C123: composing before or after the reduction of the space -/

namespace Dissect
open Finset
noncomputable section
variable {κ : Type} [DecidableEq κ]

/-- The last operation of a space all of whose words are projected through one operation. -/
theorem project_single {core r p : Space κ} {op : Op κ} {d : Option (Dict κ ℤ)} (hops : core.ops = [op])
    (hp : Periph.new core r.mat r.id2row d = .ok p) : op.project r.mat = .ok p.mat ∧ p.id2row = r.id2row := by
  obtain ⟨g1, _, g3, _⟩ := periphNew_eq_ok hp
  refine ⟨?_, g3⟩
  have : projAll ([] ++ [op]) r.mat = .ok p.mat := by rw [List.nil_append, ← hops]; exact g1
  rw [projAll_append] at this
  simpa only [projAll, ok_bind] using this

/-- What two compositions of the same data in two spaces with the same words have in common. -/
theorem compose_pair {m m' : CModel} {raw core r r' : Space κ} {w w' : ℕ} {cols cols' : Option (List κ)} {data : List (Triple κ)}
    (hwf : raw.WF) (hwf' : core.WF) (hrows : core.id2row = raw.id2row) (hf : m.Fits raw.mat.nc raw.mat.nc w)
    (hf' : m'.Fits core.mat.nc core.mat.nc w')
    (hcf : (⟨m, cols⟩ : Composer κ).ColumnsFit w) (hcf' : (⟨m', cols'⟩ : Composer κ).ColumnsFit w')
    (hr : ((⟨m, cols⟩ : Composer κ).compose data (.one raw)).2 = .ok r)
    (hr' : ((⟨m', cols'⟩ : Composer κ).compose data (.one core)).2 = .ok r') :
    r.WF ∧ 0 < r.mat.nr ∧ r.mat.nc = w ∧ r'.mat.nc = w' ∧ r.id2row = r'.id2row ∧ ∀ ph ∈ r'.id2row, ∃ x y,
      x ∈ raw.id2row ∧ y ∈ raw.id2row ∧ (x, y, ph) ∈ data ∧
      (∀ j < w, r.vecOf ph j = m.vec raw.mat.nc raw.mat.nc (raw.vecOf x) (raw.vecOf y) j) ∧
      ∀ j < w', r'.vecOf ph j = m'.vec core.mat.nc core.mat.nc (core.vecOf x) (core.vecOf y) j := by
  have hx : (ArgSpace.one raw).extract = .ok (raw, raw) := (extract_iff _ _ _).2 (Or.inl ⟨rfl, rfl⟩)
  have hx' : (ArgSpace.one core).extract = .ok (core, core) := (extract_iff _ _ _).2 (Or.inl ⟨rfl, rfl⟩)
  obtain ⟨kv, kn, q⟩ := compose_success (c := ⟨m, cols⟩) hx hwf hwf hf hcf hr
  obtain ⟨_, kn', q'⟩ := compose_success (c := ⟨m', cols'⟩) hx' hwf' hwf' hf' hcf' hr'
  have hkk : knownTriples core core data = knownTriples raw raw data := by
    unfold knownTriples; rw [hrows]
  rw [hkk] at q' kn'
  refine ⟨q.wf, ?_, q.width, q'.width, by rw [q.labels, q'.labels], fun ph hph => ?_⟩
  · rw [q.wf.nrows, q.labels, List.length_map]; exact List.length_pos_iff.2 kv
  · rw [q'.labels] at hph
    obtain ⟨⟨x, y, z⟩, ht, rfl⟩ := List.mem_map.1 hph
    obtain ⟨hd, hx1, hy1⟩ := mem_known.1 ht
    exact ⟨x, y, hx1, hy1, hd, fun j hj => composed_vec kn q ht hx1 hy1 hj,
      fun j hj => composed_vec kn' q' ht (by rw [hrows]; exact hx1) (by rw [hrows]; exact hy1) hj⟩

/-- **C123** weighted additive composition and SVD: composing in the reduced core space gives the same vectors as composing
in the full space and projecting the composed vectors through the core (`PeripheralSpace`). -/
theorem C123_additive_svd (env : Env) (raw core r r' p : Space κ) (k : ℕ) (hk : 0 < k) (hwf : raw.WF) (hops : raw.ops = [])
    (hr0 : 0 < raw.mat.nr) (hc0 : 0 < raw.mat.nc) (hs : SvdCallOk env raw.mat k)
    (hcore : raw.apply env (.dimred (.svd k)) = .ok core) (a b : ℝ) (cols cols' : Option (List κ))
    (hcf : (⟨.weighted a b, cols⟩ : Composer κ).ColumnsFit raw.mat.nc)
    (hcf' : (⟨.weighted a b, cols'⟩ : Composer κ).ColumnsFit core.mat.nc) (data : List (Triple κ))
    (hr : ((⟨.weighted a b, cols⟩ : Composer κ).compose data (.one raw)).2 = .ok r)
    (hr' : ((⟨.weighted a b, cols'⟩ : Composer κ).compose data (.one core)).2 = .ok r')
    (d : Option (Dict κ ℤ)) (hp : Periph.new core r.mat r.id2row d = .ok p) :
    p.id2row = r'.id2row ∧ p.mat.nc = r'.mat.nc ∧ ∀ ph ∈ r'.id2row, ∀ j < r'.mat.nc, p.vecOf ph j = r'.vecOf ph j := by
  obtain ⟨op, mm, hop, op', hops', hm, hrows, _, _, hwf', hop', _⟩ := apply_eq_ok hcore
  obtain ⟨r0, tm, hap, rfl, rfl⟩ := opApply_dimred hop
  simp only at hop'
  subst hop'
  rw [hops, List.nil_append] at hops'
  obtain ⟨u, sv, vt, n, htri, hn, hn0, ht⟩ := svd_apply_truncation hk hr0 hc0 hs hap
  have hcn : core.mat.nc = n := by rw [hm]; exact ht.redCols
  obtain ⟨w1, w2, w3, w4, w5, w6⟩ := compose_pair (m := .weighted a b) (m' := .weighted a b) (w := raw.mat.nc)
    (w' := core.mat.nc) hwf hwf' hrows ⟨hc0, hc0, hc0, rfl, rfl⟩ ⟨by omega, by omega, by omega, rfl, rfl⟩ hcf hcf' hr hr'
  obtain ⟨g1, g3⟩ := project_single hops' hp
  obtain ⟨hgood, hout⟩ := (models_mul (κ := κ) (.svd k) tm).eq_ok w2 g1
  have hnc : p.mat.nc = n := by
    rw [hout]; exact ht.vCols
  have hget : ∀ b l, b < r.mat.nr → l < n →
      p.mat.val.get b l = ∑ c ∈ range raw.mat.val.nc, r.mat.val.get b c * tm.val.get c l := by
    intro b l hb hl
    have hl' : l < tm.nc := by have : tm.nc = n := ht.vCols; omega
    rw [hout]
    simp only [RowMap.out, mulMap, Mat.of_get, hb, hl', and_self, if_true, DimRedT.isNmf, Bool.false_eq_true, if_false]
    have : r.mat.nc = raw.mat.val.nc := w3
    rw [this]
  have hgetc : ∀ b l, core.mat.val.get b l = ∑ c ∈ range raw.mat.val.nc, raw.mat.val.get b c * tm.val.get c l := by
    intro b l
    have hval : core.mat.val = r0.val := by rw [hm]
    rw [hval, ← ht.mul htri hn, Mat.mul_get]
  refine ⟨g3.trans w5, by rw [hnc, w4, hcn], fun ph hph j hj => ?_⟩
  obtain ⟨x, y, hx, hy, hd, e1, e2⟩ := w6 ph hph
  rw [w4] at hj
  rw [e2 j hj]
  have hlt : r.id2row.idxOf ph < r.mat.nr := by
    rw [w1.nrows]; exact List.idxOf_lt_length_iff.2 (by rw [w5]; exact hph)
  unfold Space.vecOf at e1 ⊢
  rw [g3, hget _ j hlt (by omega), hrows]
  simp only [CModel.vec, weightedVec, hgetc, mul_sum, ← sum_add_distrib]
  refine sum_congr rfl (fun c hc => ?_)
  rw [e1 c (mem_range.1 hc)]
  simp only [CModel.vec, weightedVec]
  ring

/-- **C123** feature selection: weighted additive and multiplicative composition in a space reduced to selected columns
give the same vectors as composing in the full space and projecting the composed vectors through the reduced core. -/
theorem C123_feature_selection (env : Env) (raw core r r' p : Space κ) (k : ℕ) (hk : 0 < k) (crit : Crit) (hwf : raw.WF) (hops : raw.ops = [])
    (hc0 : 0 < raw.mat.nc) (hcore : raw.apply env (.featsel k crit) = .ok core) (m : CModel)
    (hmod : (∃ a b, m = .weighted a b) ∨ m = .multiplicative) (cols cols' : Option (List κ))
    (hcf : (⟨m, cols⟩ : Composer κ).ColumnsFit raw.mat.nc) (hcf' : (⟨m, cols'⟩ : Composer κ).ColumnsFit core.mat.nc)
    (data : List (Triple κ)) (hr : ((⟨m, cols⟩ : Composer κ).compose data (.one raw)).2 = .ok r)
    (hr' : ((⟨m, cols'⟩ : Composer κ).compose data (.one core)).2 = .ok r')
    (d : Option (Dict κ ℤ)) (hp : Periph.new core r.mat r.id2row d = .ok p) :
    p.id2row = r'.id2row ∧ p.mat.nc = r'.mat.nc ∧ ∀ ph ∈ r'.id2row, ∀ j < r'.mat.nc, p.vecOf ph j = r'.vecOf ph j := by
  obtain ⟨op, mm, hop, op', hops', hm, hrows, _, _, hwf', hop', _⟩ := apply_eq_ok hcore
  obtain ⟨sel, ht, rfl⟩ := opApply_featsel hop
  obtain ⟨hbest, _, hmm⟩ := topFeatureSelection_ok ht
  simp only at hop'
  subst hop'
  rw [hops, List.nil_append] at hops'
  rw [hmm] at hm
  have hcn : core.mat.nc = sel.length := by rw [hm]; rfl
  have hpos : 0 < core.mat.nc := by
    rw [hcn, hbest.count]; exact Nat.lt_min.2 ⟨hk, hc0⟩
  have hf : m.Fits raw.mat.nc raw.mat.nc raw.mat.nc := by
    rcases hmod with ⟨a, b, rfl⟩ | rfl <;> exact ⟨hc0, hc0, hc0, rfl, rfl⟩
  have hf' : m.Fits core.mat.nc core.mat.nc core.mat.nc := by
    rcases hmod with ⟨a, b, rfl⟩ | rfl <;> exact ⟨hpos, hpos, hpos, rfl, rfl⟩
  obtain ⟨w1, w2, w3, w4, w5, w6⟩ := compose_pair hwf hwf' hrows hf hf' hcf hcf' hr hr'
  obtain ⟨g1, g3⟩ := project_single hops' hp
  obtain ⟨hgood, hout⟩ := (models_cols sel).eq_ok w2 g1
  have hnc : p.mat.nc = sel.length := by
    rw [hout]; rfl
  refine ⟨g3.trans w5, by rw [hnc, w4, hcn], fun ph hph j hj => ?_⟩
  obtain ⟨x, y, hx, hy, hd, e1, e2⟩ := w6 ph hph
  rw [w4] at hj
  rw [e2 j hj]
  have hlt : r.id2row.idxOf ph < r.mat.nr := by
    rw [w1.nrows]; exact List.idxOf_lt_length_iff.2 (by rw [w5]; exact hph)
  have hjs : j < sel.length := by omega
  have hsj : sel[j]? = some sel[j] := List.getElem?_eq_getElem hjs
  have hin : sel[j] < raw.mat.nc := hbest.inRange _ (List.getElem_mem hjs)
  have hcg : ∀ i, core.mat.val.get i j = raw.mat.val.get i sel[j] := by
    intro i
    rw [hm]
    exact Mat.selCols_get_some (A := raw.mat.val) hsj i
  have hpg : p.mat.val.get (r.id2row.idxOf ph) j = r.mat.val.get (r.id2row.idxOf ph) sel[j] := by
    rw [hout]
    simp only [RowMap.out, colsMap, Mat.of_get, hlt, hjs, and_self, if_true, hsj]
  have e3 := e1 _ hin
  unfold Space.vecOf at e3 ⊢
  rw [g3, hpg, e3, hrows]
  rcases hmod with ⟨a, b, rfl⟩ | rfl <;> simp only [CModel.vec, weightedVec, productVec, hcg]

/-- non-vacuity: the two words of `diag(3, 2)` composed before and after the reduction to one dimension. -/
example : ∃ raw core r r' p : Space String, raw.WF ∧ raw.ops = [] ∧ SvdCallOk exEnv raw.mat 1 ∧
    raw.apply exEnv (.dimred (.svd 1)) = .ok core ∧
    ((⟨.weighted 1 2, none⟩ : Composer String).compose [("a", "b", "a_b")] (.one raw)).2 = .ok r ∧
    ((⟨.weighted 1 2, none⟩ : Composer String).compose [("a", "b", "a_b")] (.one core)).2 = .ok r' ∧
    Periph.new core r.mat r.id2row none = .ok p ∧ p.vecOf "a_b" 0 = r'.vecOf "a_b" 0 := by
  obtain ⟨s, hs⟩ := (C01_accepts_iff (⟨.dense, exDiag⟩ : TMat ℝ) ["a", "b"] [] none none [] none).2
    ⟨by decide, by decide, by simp, by simp, rfl, by simp, by simp⟩
  obtain ⟨hwf, hm, hrows, hcols, hops, hsh, _⟩ := C01_result _ _ _ _ _ _ _ s hs
  have hcall : SvdCallOk exEnv s.mat 1 := by rw [hm]; exact ex_svdCall _
  have hc : 0 < s.mat.nc := by rw [hm]; simp [exDiag, TMat.nc]
  have hr : 0 < s.mat.nr := by rw [hm]; simp [exDiag, TMat.nr]
  obtain ⟨core, hcore⟩ := C100_total exEnv s 1 (by norm_num) hwf hr
    hc (by rw [hsh]; simp) (by rw [hm]) exOne [3, 2] exOne rfl (by rw [hm]; exact ex_isSvd)
    ⟨3, by simp, by norm_num [svdTol]⟩
  have hcr : core.id2row = s.id2row := (C05_apply exEnv s core _ hcore).2.1
  have hcwf : core.WF := (C05_apply exEnv s core _ hcore).1
  have hcc : 0 < core.mat.nc := by
    obtain ⟨op, mm, hop, op', hops', hmm, _⟩ := apply_eq_ok hcore
    obtain ⟨r0, tm, hap, rfl, rfl⟩ := opApply_dimred hop
    obtain ⟨u, sv, vt, n, htri, hn, hn0, ht⟩ := svd_apply_truncation (by norm_num) hr hc hcall hap
    have : core.mat.nc = n := by rw [hmm]; exact ht.redCols
    omega
  have kn : ∀ t : Space String, t.id2row = s.id2row → knownTriples t t [("a", "b", "a_b")] = [("a", "b", "a_b")] := by
    intro t ht
    unfold knownTriples
    rw [ht, hrows]
    rfl
  obtain ⟨r, h1, q1⟩ := C38_compose (⟨.weighted 1 2, none⟩ : Composer String) [("a", "b", "a_b")] (.one s) s s s.mat.nc
    ((extract_iff _ _ _).2 (Or.inl ⟨rfl, rfl⟩)) hwf hwf ⟨hc, hc, hc, rfl, rfl⟩ (by intro _ h; cases h) (by rw [kn s rfl]; simp)
    (by rw [kn s rfl]; simp)
  obtain ⟨r', h2, q2⟩ := C38_compose (⟨.weighted 1 2, none⟩ : Composer String) [("a", "b", "a_b")] (.one core) core core
    core.mat.nc ((extract_iff _ _ _).2 (Or.inl ⟨rfl, rfl⟩)) hcwf hcwf ⟨hcc, hcc, hcc, rfl, rfl⟩ (by intro _ h; cases h)
    (by rw [kn core hcr]; simp) (by rw [kn core hcr]; simp)
  have hp0 : ∃ p0, Periph.new s r.mat r.id2row none = .ok p0 := by
    have h1 : projAll s.ops r.mat = .ok r.mat := by rw [hops]; rfl
    obtain ⟨rd, hrm⟩ := Space.resolveMap_none (l := r.id2row) q1.wf.rows.1
    refine ⟨_, periphNew_ok h1 (by rw [hops]; rfl) hrm ?_⟩
    exact (Space.shapeCheck_ok_iff (Space.resolveMap_eq_ok hrm).1 hwf.cols).2 ⟨q1.wf.nrows, fun hne => absurd hcols hne⟩
  obtain ⟨p0, hp0⟩ := hp0
  have hw : p0.mat.nc = s.mat.nc := by
    have := (periphNew_eq_ok hp0).1
    rw [hops] at this
    have := ok_inj this
    rw [← this, q1.width]
  have hne : r.id2row ≠ [] := by rw [q1.labels, kn s rfl]; simp
  obtain ⟨p, hp⟩ := C113_total exEnv s s core p0 [] 1 (by norm_num) hwf hops rfl hc hr hcall hcore _ _ hne none hp0 hw
  refine ⟨s, core, r, r', p, hwf, hops, hcall, hcore, h1, h2, hp, ?_⟩
  have := C123_additive_svd exEnv s core r r' p 1 (by norm_num) hwf hops hr hc hcall hcore 1 2 none none
    (by intro _ h; cases h) (by intro _ h; cases h) _ h1 h2 none hp
  exact this.2.2 "a_b" (by rw [q2.labels, kn core hcr]; simp) 0 (by rw [q2.width]; exact hcc)

/-- non-vacuity: the multiplicative model and the selection of one of two features. -/
example (env : Env) : ∃ raw core r r' p : Space String, raw.WF ∧ raw.ops = [] ∧
    raw.apply env (.featsel 1 .sum) = .ok core ∧
    ((⟨.multiplicative, none⟩ : Composer String).compose exData (.one raw)).2 = .ok r ∧
    ((⟨.multiplicative, none⟩ : Composer String).compose exData (.one core)).2 = .ok r' ∧
    Periph.new core r.mat r.id2row none = .ok p ∧ p.vecOf "red_car" 0 = r'.vecOf "red_car" 0 := by
  obtain ⟨s, hs, hwf, n1, q1, c1⟩ := exArg_ok .sparse ["f1", "f2"] (by decide) rfl
  obtain ⟨_, hm, hrows, hcols, hops, hsh, _⟩ := C01_result _ _ _ _ _ _ _ s hs
  have hc : 0 < s.mat.nc := by omega
  have hr : 0 < s.mat.nr := by rw [hwf.nrows, q1]; simp
  obtain ⟨core, hcore⟩ := (C05_apply_total env s hwf hr hc).2 1 .sum (by omega) (by rw [hsh]; simp)
  obtain ⟨b1, b2, b3⟩ := C05_featsel_keeps_labels env s core 1 .sum hwf hcore
  obtain ⟨hcwf, hcr, _⟩ := C05_apply env s core _ hcore
  have hcc : 0 < core.mat.nc := by rw [b2]; omega
  obtain ⟨r, h1, e1⟩ := C38_compose (⟨.multiplicative, none⟩ : Composer String) exData (.one s) s s s.mat.nc
    ((extract_iff _ _ _).2 (Or.inl ⟨rfl, rfl⟩)) hwf hwf ⟨hc, hc, hc, rfl, rfl⟩ (by intro _ h; cases h)
    (by rw [exData_known q1 q1]; simp) (by rw [exData_known q1 q1]; simp)
  obtain ⟨r', h2, e2⟩ := C38_compose (⟨.multiplicative, none⟩ : Composer String) exData (.one core) core core core.mat.nc
    ((extract_iff _ _ _).2 (Or.inl ⟨rfl, rfl⟩)) hcwf hcwf ⟨hcc, hcc, hcc, rfl, rfl⟩ (by intro _ h; cases h)
    (by rw [exData_known (hcr.trans q1) (hcr.trans q1)]; simp) (by rw [exData_known (hcr.trans q1) (hcr.trans q1)]; simp)
  have hp : ∃ p, Periph.new core r.mat r.id2row none = .ok p := by
    obtain ⟨op, mm, hop, op', hops', hmm, _, _, _, _, hop', hst, _⟩ := apply_eq_ok hcore
    obtain ⟨sel, ht, rfl⟩ := opApply_featsel hop
    obtain ⟨hbest, _, hmm'⟩ := topFeatureSelection_ok ht
    simp only at hop'
    subst hop'
    rw [hops, List.nil_append] at hops'
    have hrn : r.mat.nr = r.id2row.length := e1.wf.nrows
    have hrp : 0 < r.mat.nr := by rw [hrn, e1.labels, exData_known q1 q1]; simp
    have hcn : core.mat.nc = sel.length := by rw [hmm, hmm']; rfl
    have hproj : r.mat.getCols sel = .ok ((colsMap sel).out r.mat) := (models_cols sel r.mat hrp).1 ⟨⟨fun c hc => by rw [e1.width]; exact hbest.inRange c hc, fun _ => by omega⟩,
      fun _ _ => trivial⟩
    have hall : s.applyAll env [.featsel 1 .sum] = .ok core := by
      simp only [Space.applyAll, hcore, ok_bind]
    obtain ⟨rd, hrm⟩ := Space.resolveMap_none (l := r.id2row) e1.wf.rows.1
    refine ⟨_, periphNew_ok (m' := (colsMap sel).out r.mat) (by
      rw [hops']; simp only [projAll, Op.project]; rw [hproj]; rfl) (applyAll_cols hops hall).self hrm ?_⟩
    refine (Space.shapeCheck_ok_iff (Space.resolveMap_eq_ok hrm).1 hcwf.cols).2 ⟨hrn, fun hne => ?_⟩
    have := hcwf.ncols hne
    rw [← this, hcn]
    rfl
  obtain ⟨p, hp⟩ := hp
  refine ⟨s, core, r, r', p, hwf, hops, hcore, h1, h2, hp, ?_⟩
  have := C123_feature_selection env s core r r' p 1 (by norm_num) .sum hwf hops hc hcore .multiplicative (Or.inr rfl) none none
    (by intro _ h; cases h) (by intro _ h; cases h) _ h1 h2 none hp
  exact this.2.2 "red_car" (by rw [e2.labels, exData_known (hcr.trans q1) (hcr.trans q1)]; simp) 0 (by rw [e2.width]; exact hcc)

end
end Dissect
