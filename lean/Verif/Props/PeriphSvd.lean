import Verif.Props.SvdBest
import Verif.Props.Peripheral
import Verif.Props.Invariance

/-! # C113: projecting new words into an SVD-reduced space never moves them away from each other or from the core -/

namespace Dissect
open Finset
noncomputable section
variable {κ : Type} [DecidableEq κ]

/-- Multiplying by the transformation matrix does not lower the Euclidean similarity. -/
theorem truncation_euclid {A u : Mat ℝ} {s : List ℝ} {vt : Mat ℝ} {n : ℕ} {red V : Mat ℝ}
    (h : SingularTriples A u s vt) (hn : n ≤ s.length) (ht : Truncation A u s vt n red V) {x y x' y' : ℕ → ℝ}
    (hx : ∀ l, l < n → x' l = ∑ b ∈ range A.nc, x b * V.get b l)
    (hy : ∀ l, l < n → y' l = ∑ b ∈ range A.nc, y b * V.get b l) :
    simVal .euclid A.nc x y ≤ simVal .euclid n x' y' := by
  simp only [simVal, len2]
  have key := truncation_contracts h hn ht (fun b => x b - y b)
  have e : ∑ l ∈ range n, (x' l - y' l) ^ 2 = ∑ l ∈ range n, (∑ b ∈ range A.nc, (x b - y b) * V.get b l) ^ 2 := by
    refine Finset.sum_congr rfl (fun l hl => ?_)
    rw [hx l (Finset.mem_range.1 hl), hy l (Finset.mem_range.1 hl), ← Finset.sum_sub_distrib]
    congr 1
    exact Finset.sum_congr rfl (fun b _ => by ring)
  rw [e]
  have h1 := Real.sqrt_le_sqrt key
  have h2 := Real.sqrt_nonneg (∑ l ∈ range n, (∑ b ∈ range A.nc, (x b - y b) * V.get b l) ^ 2)
  exact one_div_le_one_div_of_le (by linarith) (by linarith!)

theorem truncation_dot {A u : Mat ℝ} {s : List ℝ} {vt : Mat ℝ} {n : ℕ} {red V : Mat ℝ}
    (h : SingularTriples A u s vt) (hn : n ≤ s.length) (ht : Truncation A u s vt n red V) {x x' : ℕ → ℝ}
    (hx : ∀ l, l < n → x' l = ∑ b ∈ range A.nc, x b * V.get b l) :
    simVal .dot n x' x' ≤ simVal .dot A.nc x x := by
  simp only [simVal, Dissect.inner]
  have key := truncation_contracts h hn ht x
  have e : ∑ l ∈ range n, x' l * x' l = ∑ l ∈ range n, (∑ b ∈ range A.nc, x b * V.get b l) ^ 2 := by
    refine Finset.sum_congr rfl (fun l hl => ?_)
    rw [hx l (Finset.mem_range.1 hl), sq]
  rw [e]
  refine key.trans (le_of_eq (Finset.sum_congr rfl (fun b _ => ?_)))
  rw [sq]

/-- **C113** new words projected into a core space reduced with `Svd` are at least as similar (Euclidean) to each
other, and to the words of the core, as they are when projected into the same core before the reduction; and no new
word has a longer vector. -/
theorem C113_projected_never_apart (env : Env) (raw core0 core p0 p : Space κ) (ts : List Trans) (k : ℕ) (hk : 0 < k)
    (hwf : raw.WF) (hops : raw.ops = []) (hcore0 : raw.applyAll env ts = .ok core0) (hc : 0 < core0.mat.nc)
    (hr : 0 < core0.mat.nr) (hs : SvdCallOk env core0.mat k) (hcore : core0.apply env (.dimred (.svd k)) = .ok core)
    (m : TMat ℝ) (ws : List κ) (d : Option (Dict κ ℤ)) (hp0 : Periph.new core0 m ws d = .ok p0)
    (hp : Periph.new core m ws d = .ok p) (w1 w2 v : κ) (hw1 : w1 ∈ ws) (hw2 : w2 ∈ ws) (hv : v ∈ core0.id2row) :
    (∃ x y, p0.getSim w1 w2 .euclid none = .ok x ∧ p.getSim w1 w2 .euclid none = .ok y ∧ x ≤ y) ∧
    (∃ x y, p0.getSim w1 w1 .dot none = .ok x ∧ p.getSim w1 w1 .dot none = .ok y ∧ y ≤ x) ∧
    ∃ x y, core0.getSim v w1 .euclid (some p0) = .ok x ∧ core.getSim v w1 .euclid (some p) = .ok y ∧ x ≤ y := by
  have hcwf : core0.WF := (applyAll_rows hcore0).2.2 hwf
  obtain ⟨_, _, _, q4, _, q6, _⟩ := C26_columns_of_core env raw core0 p0 ts hwf hops hcore0 m ws d hp0
  have hall : raw.applyAll env (ts ++ [.dimred (.svd k)]) = .ok core := by
    rw [applyAll_append, hcore0]
    simp only [ok_bind, hcore]
  obtain ⟨_, _, _, r4, _, r6, _⟩ := C26_columns_of_core env raw core p _ hwf hops hall m ws d hp
  obtain ⟨op, mm, hop, op', hops', hm, hrows, _, _, hwf', hop', _⟩ := apply_eq_ok hcore
  obtain ⟨r0, tm, hap, rfl, rfl⟩ := opApply_dimred hop
  simp only at hop'
  subst hop'
  obtain ⟨u, sv, vt, n, htri, hn, hn0, ht⟩ := svd_apply_truncation hk hr hc hs hap
  have g0 := (periphNew_eq_ok hp0).1
  have g1 := (periphNew_eq_ok hp).1
  rw [hops', projAll_append, g0, ok_bind] at g1
  obtain ⟨i, hi⟩ := Space.hasWord_of_mem (s := p0) (by rw [q4]; exact hw1)
  obtain ⟨j, hj⟩ := Space.hasWord_of_mem (s := p0) (by rw [q4]; exact hw2)
  obtain ⟨a, ha⟩ := Space.hasWord_of_mem hv
  have hi' : p.HasWord i w1 := by rw [Space.HasWord, r4, ← q4]; exact hi
  have hj' : p.HasWord j w2 := by rw [Space.HasWord, r4, ← q4]; exact hj
  have ha' : core.HasWord a v := by rw [Space.HasWord, hrows]; exact ha
  have li := row_lt q6 hi
  have lj := row_lt q6 hj
  have la := row_lt hcwf ha
  obtain ⟨hgood, hout⟩ := (models_mul (κ := κ) (.svd k) tm).eq_ok (lt_of_le_of_lt (Nat.zero_le _) li) g1
  have hnc0 : p0.mat.nc = core0.mat.nc := by
    have h1 : p0.mat.nc = tm.nr := hgood.1.2.1
    rw [h1]; exact ht.vRows
  have hnc : p.mat.nc = n := by
    rw [hout]; exact ht.vCols
  have hcn : core.mat.nc = n := by rw [hm]; exact ht.redCols
  have hget : ∀ b l, b < p0.mat.nr → l < n →
      p.mat.val.get b l = ∑ c ∈ range core0.mat.val.nc, p0.mat.val.get b c * tm.val.get c l := by
    intro b l hb hl
    have hl' : l < tm.nc := by have : tm.nc = n := ht.vCols; omega
    rw [hout]
    simp only [RowMap.out, mulMap, Mat.of_get, hb, hl', and_self, if_true, DimRedT.isNmf, Bool.false_eq_true, if_false]
    have : p0.mat.nc = core0.mat.val.nc := hnc0
    rw [this]
  have hgetc : ∀ b l, core.mat.val.get b l = ∑ c ∈ range core0.mat.val.nc, core0.mat.val.get b c * tm.val.get c l := by
    intro b l
    have hval : core.mat.val = r0.val := by rw [hm]
    rw [hval, ← ht.mul htri hn, Mat.mul_get]
  have hc0 : 0 < p0.mat.nc := by omega
  have hcp : 0 < p.mat.nc := by omega
  refine ⟨⟨_, _, Space.getSim_words q6 hc0 hi hj .euclid, Space.getSim_words r6 hcp hi' hj' .euclid, ?_⟩,
    ⟨_, _, Space.getSim_words q6 hc0 hi hi .dot, Space.getSim_words r6 hcp hi' hi' .dot, ?_⟩,
    ⟨_, _, Space.getSim_words2 (target := p0) (space2 := some p0) rfl hcwf q6 hc hnc0.symm ha hi .euclid,
      Space.getSim_words2 (target := p) (space2 := some p) rfl hwf' r6 (by omega) (by omega) ha' hi' .euclid, ?_⟩⟩
  · rw [hnc0, hnc]
    exact truncation_euclid htri hn ht (fun l hl => hget i l li hl) (fun l hl => hget j l lj hl)
  · rw [hnc0, hnc]
    exact truncation_dot htri hn ht (fun l hl => hget i l li hl)
  · rw [hcn]
    exact truncation_euclid htri hn ht (fun l _ => hgetc a l) (fun l hl => hget i l li hl)

/-- **C113** the projection into the reduced core exists: new words that can be projected into the core before the
reduction, to vectors of the core's length, can be projected into the reduced core. -/
theorem C113_total (env : Env) (raw core0 core p0 : Space κ) (ts : List Trans) (k : ℕ) (hk : 0 < k)
    (hwf : raw.WF) (hops : raw.ops = []) (hcore0 : raw.applyAll env ts = .ok core0) (hc : 0 < core0.mat.nc)
    (hr : 0 < core0.mat.nr) (hs : SvdCallOk env core0.mat k) (hcore : core0.apply env (.dimred (.svd k)) = .ok core)
    (m : TMat ℝ) (ws : List κ) (hws : ws ≠ []) (d : Option (Dict κ ℤ)) (hp0 : Periph.new core0 m ws d = .ok p0)
    (hw : p0.mat.nc = core0.mat.nc) : ∃ p, Periph.new core m ws d = .ok p := by
  obtain ⟨_, _, _, q4, _, q6, _⟩ := C26_columns_of_core env raw core0 p0 ts hwf hops hcore0 m ws d hp0
  have hall : raw.applyAll env (ts ++ [.dimred (.svd k)]) = .ok core := by
    rw [applyAll_append, hcore0]
    simp only [ok_bind, hcore]
  obtain ⟨op, mm, hop, op', hops', hm, hrows, _, _, hwf', hop', hst, _⟩ := apply_eq_ok hcore
  obtain ⟨r0, tm, hap, rfl, rfl⟩ := opApply_dimred hop
  simp only at hop'
  subst hop'
  obtain ⟨u, sv, vt, n, htri, hn, hn0, ht⟩ := svd_apply_truncation hk hr hc hs hap
  obtain ⟨g0, _, _, _, _, g5, g6⟩ := periphNew_eq_ok hp0
  have hnr : p0.mat.nr = ws.length := by rw [q6.nrows, q4]
  have hpos : 0 < p0.mat.nr := by
    rw [hnr]; exact List.length_pos_iff.2 hws
  have htn : tm.nr = core0.mat.nc := ht.vRows
  have htc : tm.nc = n := ht.vCols
  have hgood : (mulMap (DimRedT.svd k).isNmf tm).Good p0.mat := by
    refine ⟨⟨⟨_, TMat.toType_ok p0.mat.ty (t := tm) (fun _ => ⟨by omega, by omega⟩)⟩, by omega, fun _ => by omega⟩, fun i hi h => ?_⟩
    simp [DimRedT.isNmf] at h
  have hproj := (models_mul (κ := κ) (.svd k) tm p0.mat hpos).1 hgood
  have hcs := (applyAll_cols hops hall).self
  have hcols := ((applyAll_rows hall).2.2 hwf).cols
  have hrows' := (Space.resolveMap_eq_ok g5).1
  refine ⟨_, periphNew_ok (by rw [hops', projAll_append, g0, ok_bind]; exact hproj) hcs g5 ?_⟩
  refine (Space.shapeCheck_ok_iff hrows' hcols).2 ⟨hnr, fun hne => absurd ?_ hne⟩
  simp only [stepCols] at hst
  have := ok_inj hst
  simp only [Prod.mk.injEq] at this
  exact this.1.symm

/-- Non-vacuity of C113: two new words projected into the space of `diag(3, 2)` reduced to one dimension. -/
example : ∃ raw core p0 p : Space String, raw.applyAll exEnv [] = .ok raw ∧
    raw.apply exEnv (.dimred (.svd 1)) = .ok core ∧ SvdCallOk exEnv raw.mat 1 ∧
    Periph.new raw ⟨.sparse, exDiag⟩ ["c", "d"] none = .ok p0 ∧ Periph.new core ⟨.sparse, exDiag⟩ ["c", "d"] none = .ok p ∧
    (∃ x y, p0.getSim "c" "d" .euclid none = .ok x ∧ p.getSim "c" "d" .euclid none = .ok y ∧ x ≤ y) ∧
    ∃ x y, raw.getSim "a" "d" .euclid (some p0) = .ok x ∧ core.getSim "a" "d" .euclid (some p) = .ok y ∧ x ≤ y := by
  obtain ⟨s, hs⟩ := (C01_accepts_iff (⟨.dense, exDiag⟩ : TMat ℝ) ["a", "b"] [] none none [] none).2
    ⟨by decide, by decide, by simp, by simp, rfl, by simp, by simp⟩
  obtain ⟨hwf, hm, hrows, hcols, hops, hsh, _⟩ := C01_result _ _ _ _ _ _ _ s hs
  have hcall : SvdCallOk exEnv s.mat 1 := by rw [hm]; exact ex_svdCall _
  have hc : 0 < s.mat.nc := by rw [hm]; simp [exDiag, TMat.nc]
  have hr : 0 < s.mat.nr := by rw [hm]; simp [exDiag, TMat.nr]
  obtain ⟨core, hcore⟩ := C100_total exEnv s 1 (by norm_num) hwf hr
    hc (by rw [hsh]; simp) (by rw [hm]) exOne [3, 2] exOne rfl (by rw [hm]; exact ex_isSvd)
    ⟨3, by simp, by norm_num [svdTol]⟩
  have hp0 : ∃ p0, Periph.new s ⟨.sparse, exDiag⟩ ["c", "d"] none = .ok p0 := by
    have h1 : projAll s.ops (⟨.sparse, exDiag⟩ : TMat ℝ) = .ok ⟨.sparse, exDiag⟩ := by rw [hops]; rfl
    obtain ⟨rd, hrm⟩ := Space.resolveMap_none (l := ["c", "d"]) (by decide)
    refine ⟨_, periphNew_ok h1 (by rw [hops]; rfl) hrm ?_⟩
    refine (Space.shapeCheck_ok_iff (Space.resolveMap_eq_ok hrm).1 hwf.cols).2 ⟨rfl, fun hne => absurd hcols hne⟩
  obtain ⟨p0, hp0⟩ := hp0
  have hw : p0.mat.nc = s.mat.nc := by
    have := (periphNew_eq_ok hp0).1
    rw [hops] at this
    have := ok_inj this
    rw [← this, hm]
  obtain ⟨p, hp⟩ := C113_total exEnv s s core p0 [] 1 (by norm_num) hwf hops rfl hc hr hcall hcore _ _ (by simp) none hp0 hw
  have := C113_projected_never_apart exEnv s s core p0 p [] 1 (by norm_num) hwf hops rfl hc hr hcall hcore _ _ none hp0 hp
    "c" "d" "a" (by simp) (by simp) (by simp [hrows])
  have h2 := C113_projected_never_apart exEnv s s core p0 p [] 1 (by norm_num) hwf hops rfl hc hr hcall hcore _ _ none hp0 hp
    "d" "d" "a" (by simp) (by simp) (by simp [hrows])
  exact ⟨s, core, p0, p, rfl, hcore, hcall, hp0, hp, this.1, h2.2.2⟩

end
end Dissect
