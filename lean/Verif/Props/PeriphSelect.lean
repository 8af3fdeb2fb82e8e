import Verif.Props.SelectSim
import Verif.Props.World

/-! # C167: what selecting features in the core space does to peripheral words -/

namespace Dissect
open Finset
noncomputable section
variable {κ : Type} [DecidableEq κ]

/-- The operation a feature selection leaves in the core space, and the columns it chose. -/
theorem featsel_op' {env : Env} {s s' : Space κ} {k : ℕ} {c : Crit} (h : s.apply env (.featsel k c) = .ok s') :
    ∃ sel, BestColumns c s.mat.val k sel ∧ s'.ops = s.ops ++ [.featsel k c (some sel) (some s.id2col)] ∧
      s'.mat.val = s.mat.val.selCols sel := by
  obtain ⟨op, m, hop, op', h1, h2, _, _, _, _, h7, _⟩ := apply_eq_ok h
  obtain ⟨sel, ht, rfl⟩ := opApply_featsel hop
  obtain ⟨hbest, _, hm⟩ := topFeatureSelection_ok ht
  simp only at h7
  exact ⟨sel, hbest, by rw [h1, h7], by rw [h2, hm]⟩

/-- The peripheral matrix on the reduced core. -/
theorem periph_sel {core core' p p' : Space κ} {k : ℕ} {c : Crit} {sel : List ℕ} {m : TMat ℝ} {ws : List κ}
    {d : Option (Dict κ ℤ)} (ho : core'.ops = core.ops ++ [.featsel k c (some sel) (some core.id2col)])
    (hp : Periph.new core m ws d = .ok p) (hp' : Periph.new core' m ws d = .ok p') :
    p'.mat.val = p.mat.val.selCols sel ∧ p'.mat.ty = p.mat.ty ∧ p'.id2row = p.id2row ∧ ∀ x ∈ sel, x < p.mat.nc := by
  obtain ⟨h1, _, h3, _⟩ := periphNew_eq_ok hp
  obtain ⟨e1, _, e3, _⟩ := periphNew_eq_ok hp'
  rw [ho, projAll_append, h1, ok_bind] at e1
  simp only [Op.project, TMat.getCols] at e1
  split at e1
  · next hall =>
    refine ⟨?_, ?_, by rw [h3, e3], fun x hx => ?_⟩
    · exact congrArg TMat.val (TMat.wrap_eq_ok e1).1
    · rw [(TMat.wrap_eq_ok e1).1]
    · simpa using List.all_eq_true.1 hall x hx
  · cases e1

/-- **C167** a peripheral word keeps the features chosen for the core space: its vector on the reduced core is its vector on
the core before, restricted to the columns that are best in the core. -/
theorem C167_columns (env : Env) (core core' p p' : Space κ) (k : ℕ) (c : Crit) (m : TMat ℝ) (ws : List κ)
    (d : Option (Dict κ ℤ)) (h : core.apply env (.featsel k c) = .ok core') (hp : Periph.new core m ws d = .ok p)
    (hp' : Periph.new core' m ws d = .ok p') :
    ∃ sel, BestColumns c core.mat.val k sel ∧ p'.id2row = p.id2row ∧ p'.mat.ty = p.mat.ty ∧ p'.mat.nr = p.mat.nr ∧
      p'.mat.nc = sel.length ∧
      ∀ t x, sel[t]? = some x →
        (∀ i, core'.mat.val.get i t = core.mat.val.get i x) ∧ ∀ i, p'.mat.val.get i t = p.mat.val.get i x := by
  obtain ⟨sel, hb, ho, hm⟩ := featsel_op' h
  obtain ⟨e1, e2, e3, _⟩ := periph_sel ho hp hp'
  refine ⟨sel, hb, e3, e2, ?_, ?_, fun t x ht => ⟨fun i => ?_, fun i => ?_⟩⟩
  · show p'.mat.val.nr = _
    rw [e1]; rfl
  · show p'.mat.val.nc = _
    rw [e1]; rfl
  · rw [hm]; exact Mat.selCols_get_some ht i
  · rw [e1]; exact Mat.selCols_get_some ht i

/-- **C167** if the words can be given a peripheral space on the core, of the width of the core, they can be given one on the
reduced core. -/
theorem C167_builds (env : Env) (raw core core' p : Space κ) (ts : List Trans) (k : ℕ) (hk : 0 < k) (c : Crit)
    (hops : raw.ops = []) (hwf : raw.WF) (hcore : raw.applyAll env ts = .ok core) (m : TMat ℝ) (ws : List κ)
    (d : Option (Dict κ ℤ)) (h : core.apply env (.featsel k c) = .ok core') (hp : Periph.new core m ws d = .ok p)
    (hws : ws ≠ []) (hc : 0 < core.mat.nc) (hw : p.mat.nc = core.mat.nc) :
    ∃ p', Periph.new core' m ws d = .ok p' := by
  obtain ⟨sel, hb, ho, hm⟩ := featsel_op' h
  obtain ⟨h1, _, h3, _, _, h6, _⟩ := periphNew_eq_ok hp
  have hcore' : raw.applyAll env (ts ++ [.featsel k c]) = .ok core' := by
    rw [applyAll_append, hcore, ok_bind, h]
  have hfix := applyAll_cols hops hcore'
  have hwf' := (applyAll_rows hcore').2.2 hwf
  have hpwf := periphNew_wf ((applyAll_rows hcore).2.2 hwf) hp
  have hlen : 0 < sel.length := by rw [hb.count]; exact Nat.lt_min.2 ⟨hk, hc⟩
  have hpr : p.mat.nr = ws.length := by rw [hpwf.nrows, h3]
  have hproj : projAll core'.ops m = .ok ⟨p.mat.ty, p.mat.val.selCols sel⟩ := by
    rw [ho, projAll_append, h1, ok_bind]
    simp only [Op.project, TMat.getCols]
    rw [if_pos]
    · exact TMat.wrap_ok fun _ => ⟨by
        show 0 < p.mat.val.nr
        rw [show p.mat.val.nr = ws.length from hpr]; exact List.length_pos_of_ne_nil hws, hlen⟩
    · refine List.all_eq_true.2 fun x hx => ?_
      have := hb.inRange x hx
      simp only [decide_eq_true_eq]
      rw [hw]; exact this
  refine ⟨_, periphNew_ok hproj hfix.self h6 ?_⟩
  rw [Space.shapeCheck_ok_iff (Space.resolveMap_eq_ok h6).1 hwf'.cols]
  refine ⟨hpr, fun hne => ?_⟩
  rw [← hwf'.ncols hne]
  show sel.length = core'.mat.val.nc
  rw [hm]; rfl

/-- **C167** selecting features in the core space never makes two peripheral words less similar by Euclidean similarity. -/
theorem C167_never_apart (env : Env) (core core' p p' : Space κ) (k : ℕ) (hk : 0 < k) (c : Crit) (hwf : core.WF)
    (hc : 0 < core.mat.nc) (m : TMat ℝ) (ws : List κ) (d : Option (Dict κ ℤ))
    (h : core.apply env (.featsel k c) = .ok core') (hp : Periph.new core m ws d = .ok p)
    (hp' : Periph.new core' m ws d = .ok p') (w1 w2 : κ) (h1 : w1 ∈ ws) (h2 : w2 ∈ ws) :
    ∃ x y, p.getSim w1 w2 .euclid none = .ok x ∧ p'.getSim w1 w2 .euclid none = .ok y ∧ x ≤ y := by
  obtain ⟨sel, hb, ho, _⟩ := featsel_op' h
  obtain ⟨e1, _, e3, e4⟩ := periph_sel ho hp hp'
  have hpr := (periphNew_eq_ok hp).2.2.1
  rw [← hpr] at h1 h2
  obtain ⟨i, hi⟩ := Space.hasWord_of_mem h1
  obtain ⟨j, hj⟩ := Space.hasWord_of_mem h2
  have hlen : 0 < sel.length := by rw [hb.count]; exact Nat.lt_min.2 ⟨hk, hc⟩
  have hnc : p'.mat.nc = sel.length := by
    show p'.mat.val.nc = _
    rw [e1]; rfl
  have hpc : 0 < p.mat.nc := lt_of_le_of_lt (Nat.zero_le _) (e4 _ (List.getElem_mem hlen))
  have hwf' := periphNew_wf (apply_eq_ok h).choose_spec.choose_spec.2.choose_spec.2.2.2.2.2.1 hp'
  refine ⟨_, _, Space.getSim_words (periphNew_wf hwf hp) hpc hi hj .euclid,
    Space.getSim_words hwf' (by rw [hnc]; exact hlen) (by unfold Space.HasWord; rw [e3]; exact hi)
      (by unfold Space.HasWord; rw [e3]; exact hj) .euclid, ?_⟩
  simp only [simVal]
  refine one_div_le_one_div_of_le (by unfold len2; positivity) (add_le_add_right ?_ _)
  unfold len2
  refine Real.sqrt_le_sqrt ?_
  rw [e1, hnc, sum_selCols hb.distinct i j (fun a b => (a - b) ^ 2)]
  refine Finset.sum_le_sum_of_subset_of_nonneg (fun x hx => ?_) fun _ _ _ => sq_nonneg _
  exact Finset.mem_range.2 (e4 x (List.mem_toFinset.1 hx))

/-- **C167 (what is true)** if at most `k` columns of the core space have an entry other than zero and the peripheral words are
zero wherever the whole core space is, selecting `k` features changes no similarity of peripheral words, by any of the four
measures. -/
theorem C167_enough_features_partial (env : Env) (core core' p p' : Space κ) (k : ℕ) (hk : 0 < k) (c : Crit) (hwf : core.WF)
    (hc : 0 < core.mat.nc) (m : TMat ℝ) (ws : List κ) (d : Option (Dict κ ℤ))
    (h : core.apply env (.featsel k c) = .ok core') (hp : Periph.new core m ws d = .ok p)
    (hp' : Periph.new core' m ws d = .ok p') (hw : p.mat.nc = core.mat.nc)
    (hs : c = .sum → NonNegative core.mat.val)
    (h0 : ∀ T : Finset ℕ, (∀ x ∈ T, x < core.mat.nc ∧ NonZeroCol core.mat.val x) → T.card ≤ k)
    (hz : ∀ x < core.mat.nc, NonZeroCol p.mat.val x → NonZeroCol core.mat.val x)
    (w1 w2 : κ) (h1 : w1 ∈ ws) (h2 : w2 ∈ ws) (sim : Sim) : p'.getSim w1 w2 sim none = p.getSim w1 w2 sim none := by
  obtain ⟨sel, hb, ho, _⟩ := featsel_op' h
  obtain ⟨e1, _, e3, e4⟩ := periph_sel ho hp hp'
  have hpr := (periphNew_eq_ok hp).2.2.1
  rw [← hpr] at h1 h2
  obtain ⟨i, hi⟩ := Space.hasWord_of_mem h1
  obtain ⟨j, hj⟩ := Space.hasWord_of_mem h2
  have hlen : 0 < sel.length := by rw [hb.count]; exact Nat.lt_min.2 ⟨hk, hc⟩
  have hnc : p'.mat.nc = sel.length := by
    show p'.mat.val.nc = _
    rw [e1]; rfl
  have hpwf := periphNew_wf hwf hp
  have hwf' := periphNew_wf (apply_eq_ok h).choose_spec.choose_spec.2.choose_spec.2.2.2.2.2.1 hp'
  have hri : ∀ i w, p.HasWord i w → i < p.mat.val.nr := by
    intro i w hi
    have : p.mat.val.nr = p.id2row.length := hpwf.nrows
    rw [this]
    exact (List.getElem?_eq_some_iff.1 hi).1
  rw [Space.getSim_words hpwf (by rw [hw]; exact hc) hi hj,
    Space.getSim_words hwf' (by rw [hnc]; exact hlen) (by unfold Space.HasWord; rw [e3]; exact hi)
      (by unfold Space.HasWord; rw [e3]; exact hj),
    e1, hnc, simVal_selCols hb.distinct e4 i j (fun x hx hn => ?_) sim]
  have hx' : x < core.mat.nc := by rw [← hw]; exact hx
  have := mt (hz x hx') (hb.dropped_zero hs h0 hx' hn)
  unfold NonZeroCol at this
  push Not at this
  exact ⟨this i (hri i _ hi), this j (hri j _ hj)⟩

/-- Counts of one core word, which never occurs with the second feature. -/
def oneWord : TMat ℝ := ⟨.dense, Mat.of 1 2 fun _ j => if j = 0 then 1 else 0⟩
/-- Counts of two peripheral words, of which the first does. -/
def twoWords : TMat ℝ := ⟨.dense, Mat.of 2 2 fun i j => if i = 1 ∧ j = 1 then 0 else 1⟩

/-- The spaces of the example. -/
theorem select_spaces (env : Env) (m : TMat ℝ) (c : Crit) (hmr : m.nr = 2) (hmc : m.nc = 2) : ∃ core core' p p' : Space String, core.WF ∧ core.mat = oneWord ∧ core.ops = [] ∧
    core.apply env (.featsel 1 c) = .ok core' ∧ Periph.new core m ["x", "y"] none = .ok p ∧
    Periph.new core' m ["x", "y"] none = .ok p' ∧ p.mat = m := by
  obtain ⟨core, hs⟩ := (C01_accepts_iff oneWord ["cat"] ["a", "b"] none none [] none).2
    ⟨by simp, by simp, by simp, by simp, rfl, fun _ => rfl, by simp⟩
  obtain ⟨hwf, hm, hr, hcol, hops, hsh, _⟩ := C01_result _ _ _ _ _ _ _ core hs
  have h1 : 0 < core.mat.nr := by rw [hm]; simp [oneWord, TMat.nr]
  have h2 : 0 < core.mat.nc := by rw [hm]; simp [oneWord, TMat.nc]
  have hops' : core.ops = [] := by first | exact hops | simp_all
  obtain ⟨core', hc'⟩ := (C05_apply_total env core hwf h1 h2).2 1 c (by omega) (by rw [hsh]; simp)
  obtain ⟨d, hd⟩ : ∃ d, Space.resolveMap ["x", "y"] none = .ok d := ⟨_, rfl⟩
  have hp := periphNew_ok (core := core) (m := m) (m' := m) (by rw [hops']; rfl)
    (show allCols core.ops (core.id2col, core.col2id) = .ok (core.id2col, core.col2id) by rw [hops']; rfl) hd
    (by
      rw [Space.shapeCheck_ok_iff (Space.resolveMap_eq_ok hd).1 hwf.cols]
      refine ⟨hmr, fun hne => ?_⟩
      rw [← hwf.ncols hne, hm]; exact hmc)
  obtain ⟨p', hp'⟩ := C167_builds env core core core' _ [] 1 (by omega) c hops' hwf rfl m ["x", "y"] none hc' hp
    (by simp) h2 (by rw [hm]; exact hmc)
  exact ⟨core, core', _, p', hwf, hm, hops', hc', hp, hp', rfl⟩

/-- **C167 (why the full claim is false)** selecting as many features as the core space uses can change similarities of
peripheral words: only one feature of the core space is not zero everywhere, so that selecting one changes nothing in the core
(C144), but a feature that only a peripheral word has is lost, and two different words become the same. -/
theorem C167_refuted (env : Env) : ∃ core core' p p' : Space String, core.WF ∧ NonNegative core.mat.val ∧
    core.apply env (.featsel 1 .sum) = .ok core' ∧
    (∀ T : Finset ℕ, (∀ x ∈ T, x < core.mat.nc ∧ NonZeroCol core.mat.val x) → T.card ≤ 1) ∧
    Periph.new core twoWords ["x", "y"] none = .ok p ∧ Periph.new core' twoWords ["x", "y"] none = .ok p' ∧
    p.mat.nc = core.mat.nc ∧ p.getSim "x" "y" .euclid none = .ok (1 / 2) ∧ p'.getSim "x" "y" .euclid none = .ok 1 := by
  obtain ⟨core, core', p, p', hwf, hm, hops, hc', hp, hp', hpm⟩ := select_spaces env twoWords .sum rfl rfl
  have hnn : NonNegative core.mat.val := by
    intro i j hi hj
    rw [hm] at hi hj ⊢
    simp only [oneWord] at hi hj ⊢
    rw [Mat.of_get_lt (show i < 1 from hi) (show j < 2 from hj)]
    split <;> norm_num
  have hz : ∀ x, x < core.mat.nc → NonZeroCol core.mat.val x → x = 0 := by
    rintro x hx ⟨i, hi, hne⟩
    rw [hm] at hi hx hne
    simp only [oneWord] at hi hne
    rw [Mat.of_get_lt (show i < 1 from hi) (show x < 2 from hx)] at hne
    by_contra hx0
    simp [hx0] at hne
  have hpr := (periphNew_eq_ok hp).2.2.1
  have hpr' := (periphNew_eq_ok hp').2.2.1
  have hpwf := periphNew_wf hwf hp
  have hwf' := periphNew_wf (apply_eq_ok hc').choose_spec.choose_spec.2.choose_spec.2.2.2.2.2.1 hp'
  obtain ⟨sel, hb, _, _, _, hnc, hcol⟩ := C167_columns env core core' p p' 1 .sum twoWords _ none hc' hp hp'
  have hlen : sel.length = 1 := by
    rw [hb.count, hm]; rfl
  obtain ⟨x, rfl⟩ := List.length_eq_one_iff.1 hlen
  have hx0 : x = 0 := by
    have hx2 : x < 2 := by
      have := hb.inRange x (by simp)
      rw [hm] at this
      exact this
    by_contra hne
    obtain rfl : x = 1 := by omega
    have := hb.best 1 (by simp) 0 (by rw [hm]; simp [oneWord]) (by simp)
    rw [hm] at this
    have q0 : colQuantity .sum oneWord.val 0 = 1 := by
      simp [colQuantity, oneWord, Mat.of_get]
    have q1 : colQuantity .sum oneWord.val 1 = 0 := by
      simp [colQuantity, oneWord, Mat.of_get]
    rw [q0, q1] at this
    norm_num at this
  subst hx0
  have hcol0 := (hcol 0 0 rfl).2
  have b1 : ∀ i j, i < 2 → j < 2 → p.mat.val.get i j = if i = 1 ∧ j = 1 then (0 : ℝ) else 1 := by
    intro i j hi hj
    rw [hpm]
    exact Mat.of_get_lt hi hj
  have hx : p.HasWord 0 "x" := by unfold Space.HasWord; rw [hpr]; rfl
  have hy : p.HasWord 1 "y" := by unfold Space.HasWord; rw [hpr]; rfl
  have hx' : p'.HasWord 0 "x" := by unfold Space.HasWord; rw [hpr']; rfl
  have hy' : p'.HasWord 1 "y" := by unfold Space.HasWord; rw [hpr']; rfl
  have hpc : p.mat.nc = 2 := by rw [hpm]; rfl
  have hpc' : p'.mat.nc = 1 := hnc
  refine ⟨core, core', p, p', hwf, hnn, hc', fun T hT => ?_, hp, hp', by rw [hpm, hm]; rfl, ?_, ?_⟩
  · exact Finset.card_le_one.2 fun a ha b hb => by rw [hz a (hT a ha).1 (hT a ha).2, hz b (hT b hb).1 (hT b hb).2]
  · rw [Space.getSim_words hpwf (by rw [hpc]; omega) hx hy, hpc]
    congr 1
    simp [simVal, len2, Finset.sum_range_succ, b1]
    norm_num
  · rw [Space.getSim_words hwf' (by rw [hpc']; omega) hx' hy', hpc']
    congr 1
    simp [simVal, len2, hcol0, b1]

/-- Non-vacuity of C167: the two words on the core space and on the reduced one. -/
example (env : Env) : ∃ core core' p p' : Space String, core.apply env (.featsel 1 .sum) = .ok core' ∧
    Periph.new core twoWords ["x", "y"] none = .ok p ∧ Periph.new core' twoWords ["x", "y"] none = .ok p' ∧
    ∃ x y, p.getSim "x" "y" .euclid none = .ok x ∧ p'.getSim "x" "y" .euclid none = .ok y ∧ x ≤ y := by
  obtain ⟨core, core', p, p', hwf, hm, _, hc', hp, hp', _⟩ := select_spaces env twoWords .sum rfl rfl
  exact ⟨core, core', p, p', hc', hp, hp', C167_never_apart env core core' p p' 1 (by omega) .sum hwf
    (by rw [hm]; exact Nat.succ_pos _) twoWords _ none hc' hp hp' "x" "y" (by simp) (by simp)⟩

/-- Non-vacuity of the part that is true: two words which, like the core word, never occur with the second feature. -/
example (env : Env) : ∃ core core' p p' : Space String, core.apply env (.featsel 1 .length) = .ok core' ∧
    (∃ m, Periph.new core m ["x", "y"] none = .ok p ∧ Periph.new core' m ["x", "y"] none = .ok p') ∧
    p'.getSim "x" "y" .lin none = p.getSim "x" "y" .lin none := by
  obtain ⟨core, core', p, p', hwf, hm, _, hc', hp, hp', hpm⟩ :=
    select_spaces env ⟨.sparse, Mat.of 2 2 fun i j => if j = 0 then (i + 1 : ℕ) else 0⟩ .length rfl rfl
  have hz : ∀ x < core.mat.nc, ∀ i < core.mat.val.nr, core.mat.val.get i x ≠ 0 → x = 0 := by
    intro x hx i hi hne
    rw [hm] at hi hx hne
    simp only [oneWord] at hi hne
    rw [Mat.of_get_lt (show i < 1 from hi) (show x < 2 from hx)] at hne
    by_contra hx0
    simp [hx0] at hne
  refine ⟨core, core', p, p', hc', ⟨_, hp, hp'⟩, C167_enough_features_partial env core core' p p' 1 (by omega) .length hwf
    (by rw [hm]; exact Nat.succ_pos _) _ _ none hc' hp hp' (by rw [hpm, hm]; rfl) (fun h => by cases h)
    (fun T hT => ?_) (fun x hx => ?_) "x" "y" (by simp) (by simp) .lin⟩
  · refine Finset.card_le_one.2 fun a ha b hb => ?_
    obtain ⟨ha1, i, ha2, ha3⟩ := hT a ha
    obtain ⟨hb1, j, hb2, hb3⟩ := hT b hb
    rw [hz a ha1 i ha2 ha3, hz b hb1 j hb2 hb3]
  · rintro ⟨i, hi, hne⟩
    have hx2 : x < 2 := by rw [hm] at hx; exact hx
    rw [hpm] at hi hne
    rw [Mat.of_get_lt (show i < 2 from hi) hx2] at hne
    have hx0 : x = 0 := by
      by_contra hx0
      simp [hx0] at hne
    subst hx0
    refine ⟨0, by rw [hm]; exact Nat.succ_pos _, ?_⟩
    rw [hm]
    simp [oneWord, Mat.of_get]

end
end Dissect
