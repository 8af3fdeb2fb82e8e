import Verif.Props.PeriphBatch
import Verif.Props.Scaling
import Verif.Props.SvdBest
import Verif.Props.Invariance

/-! # C155 – C157: what the transformations do to a row of counts -/

namespace Dissect
open Finset
noncomputable section
variable {κ : Type} [DecidableEq κ]

/-! ## Row maps -/

/-- A row map that sends the zero row to the zero row. -/
def RowMap.ZeroSafe (R : RowMap) : Prop := ∀ n j, R.row n (fun _ => 0) j = 0

theorem RowMap.ZeroSafe.comp {R S : RowMap} (hR : R.ZeroSafe) (hS : S.ZeroSafe) : (R.comp S).ZeroSafe := by
  intro n j
  have e : (fun j => if j < R.width n then R.row n (fun _ => 0) j else 0) = fun _ => (0 : ℝ) := by
    funext k
    rw [hR n k, ite_self]
  show S.row (R.width n) (fun j => if j < R.width n then R.row n (fun _ => 0) j else 0) j = 0
  rw [e]
  exact hS _ j

omit [DecidableEq κ] in
theorem Op.zeroSafe (op : Op κ) : op.rowMap.ZeroSafe := by
  have hfail : RowMap.fail.ZeroSafe := fun _ _ => rfl
  have hplog : plogMap.ZeroSafe := fun n j => by simp [plogMap]
  have hep : ∀ a, (epmiMap a).ZeroSafe := fun a n j => by simp [epmiMap]
  cases op with
  | scaling t st =>
    rcases t with _ | _ | _ | _ | c | c
    · rcases st with _ | a | x
      exacts [hfail, hep a, hfail]
    · rcases st with _ | a | x
      exacts [hfail, (hep a).comp hplog, hfail]
    · rcases st with _ | a | x
      exacts [hfail, fun n j => zero_mul _, hfail]
    · rcases st with _ | a | x <;> exact fun n j => hplog n j
    · rcases st with _ | a | x <;> exact fun n j => mul_zero _
    · rcases st with _ | a | x
      exacts [hfail, hfail, fun n j => by simp [Op.rowMap, normMap]]
  | dimred t tm =>
    rcases tm with _ | tm
    · exact hfail
    · intro n j
      simp [Op.rowMap, mulMap]
  | featsel k c sel orig =>
    rcases sel with _ | sel
    · exact hfail
    · intro n j
      simp only [Op.rowMap, colsMap]
      split <;> rfl

omit [DecidableEq κ] in
theorem opsMap_zeroSafe (ops : List (Op κ)) : (opsMap ops).ZeroSafe := by
  induction ops with
  | nil => exact fun _ _ => rfl
  | cons op ops ih => exact op.zeroSafe.comp ih

theorem RowMap.out_zero {R : RowMap} (hR : R.ZeroSafe) (m : TMat ℝ) {i : ℕ}
    (h : ∀ j < m.nc, m.val.get i j = 0) (j : ℕ) : (R.out m).val.get i j = 0 := by
  by_cases hi : i < m.nr
  · have e : m.val.get i = fun _ => 0 := by
      funext k
      by_cases hk : k < m.nc
      · exact h k hk
      · exact m.val.get_col_oob i (not_lt.1 hk)
    rw [RowMap.out_row R m hi, e]
    beta_reduce
    rw [hR, ite_self]
  · exact (R.out m).val.get_row_oob j (not_lt.1 hi)

/-! ## C155 -/

/-- The number of cells that are not zero. -/
def nonZeros (A : Mat ℝ) : ℕ := (((range A.nr) ×ˢ (range A.nc)).filter (fun p => A.get p.1 p.2 ≠ 0)).card

/-- **C155** No weighting and no normalisation turns a zero into something else. -/
theorem C155_entries (env : Env) (s s' : Space κ) (st : ScalingT) (hr : 0 < s.mat.nr)
    (h : s.apply env (.scaling st) = .ok s') (i j : ℕ) (h0 : s.mat.val.get i j = 0) : s'.mat.val.get i j = 0 := by
  obtain ⟨op, m, hop, op', h1, h2, _, _, _, _, h7, _⟩ := apply_eq_ok h
  obtain ⟨rfl, hst⟩ := opApply_scaling hop
  have hsh := applyT_shape hr hst
  rw [h2]
  by_cases hi : i < s.mat.nr
  swap
  · exact m.val.get_row_oob j (by rw [show m.val.nr = s.mat.nr from hsh.2.1]; omega)
  by_cases hj : j < s.mat.nc
  swap
  · exact m.val.get_col_oob i (by rw [show m.val.nc = s.mat.nc from hsh.2.2]; omega)
  have main : ∀ (R : RowMap) (g : TMat ℝ → Py (TMat ℝ)), R.Models g → g s.mat = .ok m →
      (∀ n x, x j = 0 → R.row n x j = 0) → m.val.get i j = 0 := by
    intro R g hM hg hz
    rw [(hM.eq_ok hr hg).2, RowMap.out_row R _ hi]
    beta_reduce
    rw [hz _ _ h0, ite_self]
  cases st with
  | epmi => exact main _ _ (models_epmi s.mat.sum0) hst (fun n x hx => by simp [epmiMap, hx])
  | ppmi =>
    refine main _ _ (models_ppmi s.mat.sum0) hst (fun n x hx => ?_)
    simp [RowMap.comp, plogMap, epmiMap, hx]
  | plmi =>
    refine main _ _ (models_plmi s.mat.sum0) hst (fun n x hx => ?_)
    simp [plmiMap, hx]
  | plog => exact main _ _ models_plogW hst (fun n x hx => by simp [plogWMap, plogMap, hx])
  | rowNorm c => exact main _ _ (models_rowNorm c) hst (fun n x hx => by simp [rowNormMap, hx])
  | norm c =>
    have e : normalization c s.mat (some (normTotal c s.mat)) = .ok m := hst
    exact main _ _ (models_norm c (normTotal c s.mat)) e (fun n x hx => by simp [normMap, hx])

/-- **C155** EPMI and the normalisations keep every non-zero count. -/
theorem C155_kept (env : Env) (s s' : Space κ) (st : ScalingT) (hr : 0 < s.mat.nr) (hnn : NonNegative s.mat.val)
    (hst : st = .epmi ∨ (∃ c, st = .rowNorm c) ∨ ∃ c, st = .norm c) (h : s.apply env (.scaling st) = .ok s') (i j : ℕ)
    (h0 : s.mat.val.get i j ≠ 0) : s'.mat.val.get i j ≠ 0 := by
  obtain ⟨op, m, hop, op', h1, h2, _, _, _, _, h7, _⟩ := apply_eq_ok h
  obtain ⟨rfl, ha⟩ := opApply_scaling hop
  rw [h2]
  have hi : i < s.mat.val.nr := by
    by_contra hi
    exact h0 (s.mat.val.get_row_oob j (not_lt.1 hi))
  have hj : j < s.mat.val.nc := by
    by_contra hj
    exact h0 (s.mat.val.get_col_oob i (not_lt.1 hj))
  have hc : 0 < s.mat.nc := lt_of_le_of_lt (Nat.zero_le j) hj
  obtain ⟨p1, p2, p3⟩ := C16_no_division_by_zero s.mat.val hnn i j hi hj h0
  rcases hst with rfl | ⟨c, rfl⟩ | ⟨c, rfl⟩
  · obtain ⟨r, e1, _, _, _, e5⟩ := C16_epmi s.mat hr hc hnn
    obtain rfl := ok_inj (e1.symm.trans ha)
    rw [e5 i j hi hj]
    unfold epmiSpec
    rw [if_neg h0]
    positivity
  · obtain ⟨r, e1, _, _, _, e5, e6⟩ := C18_row_normalization c s.mat hr hc
    obtain rfl := ok_inj (e1.symm.trans ha)
    have hq : rowQuantity c s.mat.val i ≠ 0 := by
      cases c with
      | length => exact fun hq => h0 ((C18_length_zero_iff _ _).1 hq j hj)
      | sum => exact p1.ne'
    rw [(e5 i hi hq).2]
    exact div_ne_zero h0 hq
  · obtain ⟨r, e1, _, _, _, e5, e6⟩ := C19_normalization c s.mat hr hc
    obtain rfl := ok_inj (e1.symm.trans ha)
    by_cases hq : matQuantity c s.mat.val = 0
    · rw [e6 hq]
      exact h0
    · rw [(e5 hq).2]
      exact div_ne_zero h0 hq

/-- **C155** … so a scaled matrix has at most as many non-zero cells. -/
theorem C155_count (env : Env) (s s' : Space κ) (st : ScalingT) (hr : 0 < s.mat.nr)
    (h : s.apply env (.scaling st) = .ok s') : nonZeros s'.mat.val ≤ nonZeros s.mat.val := by
  obtain ⟨op, m, hop, op', h1, h2, _, _, _, _, h7, _⟩ := apply_eq_ok h
  obtain ⟨rfl, hst⟩ := opApply_scaling hop
  have hsh := applyT_shape hr hst
  refine Finset.card_le_card fun p hp => ?_
  simp only [Finset.mem_filter, Finset.mem_product, Finset.mem_range] at hp ⊢
  obtain ⟨⟨p1, p2⟩, p3⟩ := hp
  rw [h2] at p1 p2
  refine ⟨⟨by rwa [show m.val.nr = s.mat.val.nr from hsh.2.1] at p1,
    by rwa [show m.val.nc = s.mat.val.nc from hsh.2.2] at p2⟩, fun h0 => p3 ?_⟩
  exact C155_entries env s s' st hr h p.1 p.2 h0

/-- **C155** A word without any counts has the zero vector after any sequence of scalings, feature selections and SVD
reductions, and cosine 0 with every word. -/
theorem C155_word (env : Env) (raw core : Space κ) (ts : List Trans) (hwf : raw.WF) (hops : raw.ops = [])
    (hr : 0 < raw.mat.nr) (hc : 0 < raw.mat.nc) (hts : ∀ t ∈ ts, t.Exact)
    (hsvd : ∀ pre k post s, ts = pre ++ .dimred (.svd k) :: post → raw.applyAll env pre = .ok s →
      SvdCallOk env s.mat k)
    (hcore : raw.applyAll env ts = .ok core) (i : ℕ) (w : κ) (hw : raw.HasWord i w)
    (h0 : ∀ j < raw.mat.nc, raw.mat.val.get i j = 0) :
    core.HasWord i w ∧ (∀ j, core.mat.val.get i j = 0) ∧
      ∀ v ∈ core.id2row, core.getSim w v .cos none = .ok 0 ∧ core.getSim v w .cos none = .ok 0 := by
  have hR := reproduces_applyAll hops hr hc hts hsvd hcore
  obtain ⟨_, hout⟩ := (models_projAll core.ops).eq_ok hr hR.proj
  obtain ⟨hrow, _, hcwf⟩ := applyAll_rows hcore
  have hz : ∀ j, core.mat.val.get i j = 0 := by
    intro j
    rw [hout]
    exact RowMap.out_zero (opsMap_zeroSafe core.ops) raw.mat h0 j
  have hw' : core.HasWord i w := by
    unfold Space.HasWord
    rw [hrow]
    exact hw
  refine ⟨hw', hz, fun v hv => ?_⟩
  obtain ⟨k, hk⟩ := List.mem_iff_getElem?.1 hv
  have hl : len2 core.mat.nc (core.mat.val.get i) = 0 := len2_eq_zero.2 fun j _ => hz j
  rw [Space.getSim_words (hcwf hwf) hR.wide hw' hk .cos, Space.getSim_words (hcwf hwf) hR.wide hk hw' .cos]
  simp [simVal, hl]

/-- **C155** The same for peripheral words, whatever the transformations of the core (NMF included). -/
theorem C155_peripheral (core p : Space κ) (m : TMat ℝ) (ws : List κ) (d : Option (Dict κ ℤ)) (hm : 0 < m.nr)
    (hp : Periph.new core m ws d = .ok p) (i : ℕ) (h0 : ∀ j < m.nc, m.val.get i j = 0) :
    ∀ j, p.mat.val.get i j = 0 := by
  obtain ⟨h1, -⟩ := periphNew_eq_ok hp
  rw [((models_projAll core.ops).eq_ok hm h1).2]
  exact RowMap.out_zero (opsMap_zeroSafe core.ops) m h0

/-! ## C156 -/

/-- **C156** Words with the same counts have the same vector in a core space. -/
theorem C156_core (env : Env) (raw core : Space κ) (ts : List Trans) (hops : raw.ops = [])
    (hr : 0 < raw.mat.nr) (hc : 0 < raw.mat.nc) (hts : ∀ t ∈ ts, t.Exact)
    (hsvd : ∀ pre k post s, ts = pre ++ .dimred (.svd k) :: post → raw.applyAll env pre = .ok s →
      SvdCallOk env s.mat k)
    (hcore : raw.applyAll env ts = .ok core) (i i' : ℕ) (hi : i < raw.mat.nr) (hi' : i' < raw.mat.nr)
    (h : ∀ j < raw.mat.nc, raw.mat.val.get i j = raw.mat.val.get i' j) :
    ∀ j, core.mat.val.get i j = core.mat.val.get i' j := by
  have hR := reproduces_applyAll hops hr hc hts hsvd hcore
  obtain ⟨_, hout⟩ := (models_projAll core.ops).eq_ok hr hR.proj
  have e : raw.mat.val.get i = raw.mat.val.get i' := by
    funext k
    by_cases hk : k < raw.mat.nc
    · exact h k hk
    · rw [raw.mat.val.get_col_oob i (not_lt.1 hk), raw.mat.val.get_col_oob i' (not_lt.1 hk)]
  intro j
  rw [hout, RowMap.out_row _ _ hi, RowMap.out_row _ _ hi', e]

theorem row_ext {A B : Mat ℝ} (hc : A.nc = B.nc) {i i' : ℕ} (h : ∀ j < A.nc, A.get i j = B.get i' j) :
    A.get i = B.get i' := by
  funext k
  by_cases hk : k < A.nc
  · exact h k hk
  · rw [A.get_col_oob i (not_lt.1 hk), B.get_col_oob i' (by omega)]

/-- **C156** A peripheral word has the vector its counts determine: not its name, nor the other words given with it, nor
its position among them, nor the storage of the counts (dense or sparse). -/
theorem C156_peripheral (core p p' : Space κ) (m m' : TMat ℝ) (ws ws' : List κ) (d d' : Option (Dict κ ℤ))
    (hp : Periph.new core m ws d = .ok p) (hp' : Periph.new core m' ws' d' = .ok p') (i i' : ℕ) (hi : i < m.nr)
    (hi' : i' < m'.nr) (hnc : m.nc = m'.nc) (h : ∀ j < m.nc, m.val.get i j = m'.val.get i' j) :
    p.mat.nc = p'.mat.nc ∧ ∀ j, p.mat.val.get i j = p'.mat.val.get i' j := by
  obtain ⟨h1, -⟩ := periphNew_eq_ok hp
  obtain ⟨h1', -⟩ := periphNew_eq_ok hp'
  rw [((models_projAll core.ops).eq_ok (by omega) h1).2, ((models_projAll core.ops).eq_ok (by omega) h1').2]
  refine ⟨?_, fun j => ?_⟩
  · show (opsMap core.ops).width m.nc = (opsMap core.ops).width m'.nc
    rw [hnc]
  · rw [RowMap.out_row _ _ hi, RowMap.out_row _ _ hi', row_ext hnc h, hnc]

/-- The transformations after which only the proportions of the counts of a word matter. -/
def Trans.Relative : Trans → Prop
  | .scaling .epmi => True
  | .scaling .ppmi => True
  | .scaling (.rowNorm _) => True
  | _ => False

/-- A row map that does not see the scale of its row. -/
def RowMap.ScaleFree (R : RowMap) : Prop := ∀ n (x : ℕ → ℝ) (t : ℝ), 0 < t → R.row n (fun j => t * x j) = R.row n x

theorem rowScale_smul (c : Crit) (n : ℕ) (x : ℕ → ℝ) {t : ℝ} (ht : 0 < t) :
    rowScale c n (fun j => t * x j) = t * rowScale c n x := by
  cases c with
  | length =>
    show Real.sqrt _ = t * Real.sqrt _
    rw [show ∑ k ∈ range n, (fun j => t * x j) k * (fun j => t * x j) k = t ^ 2 * ∑ k ∈ range n, x k * x k by
      rw [Finset.mul_sum]; exact Finset.sum_congr rfl fun k _ => by ring]
    rw [Real.sqrt_mul (sq_nonneg t), Real.sqrt_sq ht.le]
  | sum =>
    show ∑ k ∈ range n, t * x k = t * ∑ k ∈ range n, x k
    rw [Finset.mul_sum]

theorem cancel_scale {t : ℝ} (ht : 0 < t) (s x : ℝ) : (t * s)⁻¹ * (t * x) = s⁻¹ * x := by
  rw [mul_inv]
  field_simp

theorem epmiMap_scaleFree (a : Arr ℝ) : (epmiMap a).ScaleFree := by
  intro n x t ht
  funext j
  show (∑ k ∈ range n, t * x k)⁻¹ * (t * x j) * _ = (∑ k ∈ range n, x k)⁻¹ * x j * _
  rw [← Finset.mul_sum, cancel_scale ht]

/-- What a space remembers about a transformation applied to it. -/
def Remembered (t : Trans) (op : Op κ) : Prop :=
  match t with
  | .scaling st => ∃ m : TMat ℝ, op = .scaling st (if st.usesStats then some (st.columnStats m) else none)
  | .dimred dt => ∃ tm, op = .dimred dt tm
  | .featsel k c => ∃ sel orig, op = .featsel k c sel orig

theorem applyAll_remembered {env : Env} : ∀ {ts : List Trans} {s s' : Space κ}, s.applyAll env ts = .ok s' →
    ∃ ops, s'.ops = s.ops ++ ops ∧ List.Forall₂ Remembered ts ops := by
  intro ts
  induction ts with
  | nil =>
    intro s s' h
    obtain rfl := ok_inj h
    exact ⟨[], by simp, .nil⟩
  | cons t ts ih =>
    intro s s' h
    simp only [Space.applyAll, bind_eq_ok] at h
    obtain ⟨s1, h1, h2⟩ := h
    obtain ⟨op, m, hop, op', e1, -, -, -, -, -, h7, -⟩ := apply_eq_ok h1
    obtain ⟨ops, e2, hf⟩ := ih h2
    refine ⟨op' :: ops, by rw [e2, e1]; simp, .cons ?_ hf⟩
    cases t with
    | scaling st =>
      obtain ⟨rfl, -⟩ := opApply_scaling hop
      exact ⟨s.mat, h7⟩
    | dimred dt =>
      obtain ⟨r0, tm, -, rfl, -⟩ := opApply_dimred hop
      exact ⟨_, h7⟩
    | featsel k c =>
      obtain ⟨sel, -, rfl⟩ := opApply_featsel hop
      exact ⟨_, _, h7⟩

omit [DecidableEq κ] in
theorem Remembered.scaleFree {t : Trans} {op : Op κ} (ht : t.Relative) (h : Remembered t op) : op.rowMap.ScaleFree := by
  cases t with
  | dimred dt => exact ht.elim
  | featsel k c => exact ht.elim
  | scaling st =>
    obtain ⟨m, rfl⟩ := h
    rcases st with _ | _ | _ | _ | c | c
    · exact epmiMap_scaleFree m.sum0
    · intro n x t ht
      show plogMap.row n (fun j => if j < n then (epmiMap m.sum0).row n (fun j => t * x j) j else 0) = _
      rw [epmiMap_scaleFree m.sum0 n x t ht]
      rfl
    · exact ht.elim
    · exact ht.elim
    · intro n x t ht
      funext j
      show (rowScale c n (fun j => t * x j))⁻¹ * (t * x j) = (rowScale c n x)⁻¹ * x j
      rw [rowScale_smul c n x ht, cancel_scale ht]
    · exact ht.elim

omit [DecidableEq κ] in
theorem opsMap_scaleFree {t : Trans} {ts : List Trans} {ops : List (Op κ)} (ht : t.Relative)
    (h : List.Forall₂ Remembered (t :: ts) ops) : (opsMap ops).ScaleFree := by
  cases h with
  | cons h1 h2 =>
    intro n x u hu
    simp only [opsMap, RowMap.comp]
    rw [h1.scaleFree ht n x u hu]

/-- **C156** When the first transformation is EPMI, PPMI or a row normalisation, words with proportional counts have the
same vector in the core space: how often a word occurs does not matter, only with what. -/
theorem C156_proportional (env : Env) (raw core : Space κ) (t : Trans) (ts : List Trans) (ht : t.Relative)
    (hops : raw.ops = []) (hr : 0 < raw.mat.nr) (hc : 0 < raw.mat.nc) (hts : ∀ t ∈ ts, t.Exact)
    (hsvd : ∀ pre k post s, t :: ts = pre ++ .dimred (.svd k) :: post → raw.applyAll env pre = .ok s →
      SvdCallOk env s.mat k)
    (hcore : raw.applyAll env (t :: ts) = .ok core) (i i' : ℕ) (hi : i < raw.mat.nr) (hi' : i' < raw.mat.nr)
    (u : ℝ) (hu : 0 < u) (h : ∀ j < raw.mat.nc, raw.mat.val.get i j = u * raw.mat.val.get i' j) :
    ∀ j, core.mat.val.get i j = core.mat.val.get i' j := by
  have hte : t.Exact := by
    cases t with
    | scaling st => trivial
    | dimred dt => exact ht.elim
    | featsel k c => exact ht.elim
  have hR := reproduces_applyAll hops hr hc (ts := t :: ts)
    (by intro x hx; rcases List.mem_cons.1 hx with rfl | hx; exacts [hte, hts x hx]) hsvd hcore
  obtain ⟨_, hout⟩ := (models_projAll core.ops).eq_ok hr hR.proj
  obtain ⟨ops, e1, e2⟩ := applyAll_remembered hcore
  rw [hops, List.nil_append] at e1
  have e : raw.mat.val.get i = fun j => u * raw.mat.val.get i' j := by
    funext k
    by_cases hk : k < raw.mat.nc
    · exact h k hk
    · rw [raw.mat.val.get_col_oob i (not_lt.1 hk), raw.mat.val.get_col_oob i' (not_lt.1 hk), mul_zero]
  intro j
  rw [hout, RowMap.out_row _ _ hi, RowMap.out_row _ _ hi', e, e1, opsMap_scaleFree ht e2 _ _ u hu]

/-- **C156** … and the same for peripheral words, whatever the later transformations. -/
theorem C156_peripheral_proportional (env : Env) (raw core p p' : Space κ) (t : Trans) (ts : List Trans) (ht : t.Relative)
    (hops : raw.ops = []) (hcore : raw.applyAll env (t :: ts) = .ok core) (m m' : TMat ℝ) (ws ws' : List κ)
    (d d' : Option (Dict κ ℤ)) (hp : Periph.new core m ws d = .ok p) (hp' : Periph.new core m' ws' d' = .ok p')
    (i i' : ℕ) (hi : i < m.nr) (hi' : i' < m'.nr) (hnc : m.nc = m'.nc) (u : ℝ) (hu : 0 < u)
    (h : ∀ j < m.nc, m.val.get i j = u * m'.val.get i' j) :
    ∀ j, p.mat.val.get i j = p'.mat.val.get i' j := by
  obtain ⟨h1, -⟩ := periphNew_eq_ok hp
  obtain ⟨h1', -⟩ := periphNew_eq_ok hp'
  obtain ⟨ops, e1, e2⟩ := applyAll_remembered hcore
  rw [hops, List.nil_append] at e1
  have e : m.val.get i = fun j => u * m'.val.get i' j := by
    funext k
    by_cases hk : k < m.nc
    · exact h k hk
    · rw [m.val.get_col_oob i (not_lt.1 hk), m'.val.get_col_oob i' (by have : m.val.nc = m'.val.nc := hnc; simp only [TMat.nc] at hk; omega), mul_zero]
  intro j
  rw [((models_projAll core.ops).eq_ok (by omega) h1).2, ((models_projAll core.ops).eq_ok (by omega) h1').2,
    RowMap.out_row _ _ hi, RowMap.out_row _ _ hi', e, e1, opsMap_scaleFree ht e2 _ _ u hu, hnc]

/-! ## C157 -/

/-- The transformations that are linear on the rows once the core is built. -/
def Trans.Linear : Trans → Prop
  | .scaling (.norm _) => True
  | .dimred (.svd _) => True
  | .featsel _ _ => True
  | _ => False

/-- A linear row map. -/
def RowMap.Linear (R : RowMap) : Prop := ∀ n (x y : ℕ → ℝ) (a b : ℝ) (j : ℕ),
  R.row n (fun k => a * x k + b * y k) j = a * R.row n x j + b * R.row n y j

theorem RowMap.Linear.comp {R S : RowMap} (hR : R.Linear) (hS : S.Linear) : (R.comp S).Linear := by
  intro n x y a b j
  simp only [RowMap.comp]
  rw [← hS]
  congr 1
  funext k
  split
  · exact hR n x y a b k
  · ring

omit [DecidableEq κ] in
theorem Remembered.linear {t : Trans} {op : Op κ} (ht : t.Linear) (h : Remembered t op) : op.rowMap.Linear := by
  have hfail : RowMap.fail.Linear := fun _ _ _ _ _ _ => rfl
  cases t with
  | dimred dt =>
    obtain ⟨tm, rfl⟩ := h
    cases dt with
    | nmf k ch => exact ht.elim
    | svd k =>
      rcases tm with _ | tm
      · exact hfail
      · intro n x y a b j
        simp only [Op.rowMap, mulMap, DimRedT.isNmf, Bool.false_eq_true, if_false]
        rw [Finset.mul_sum, Finset.mul_sum, ← Finset.sum_add_distrib]
        exact Finset.sum_congr rfl fun k _ => by ring
  | featsel k c =>
    obtain ⟨sel, orig, rfl⟩ := h
    rcases sel with _ | sel
    · exact hfail
    · intro n x y a b j
      simp only [Op.rowMap, colsMap]
      split <;> ring
  | scaling st =>
    obtain ⟨m, rfl⟩ := h
    rcases st with _ | _ | _ | _ | c | c
    · exact ht.elim
    · exact ht.elim
    · exact ht.elim
    · exact ht.elim
    · exact ht.elim
    · intro n x y a b j
      show (normMap (normTotal c m)).row n _ j = a * (normMap (normTotal c m)).row n _ j + b * (normMap (normTotal c m)).row n _ j
      simp only [normMap]
      split <;> ring

omit [DecidableEq κ] in
theorem opsMap_linear {ts : List Trans} {ops : List (Op κ)} (ht : ∀ t ∈ ts, t.Linear)
    (h : List.Forall₂ Remembered ts ops) : (opsMap ops).Linear := by
  induction h with
  | nil => exact fun _ _ _ _ _ _ => rfl
  | cons h1 _ ih =>
    exact (h1.linear (ht _ (by simp))).comp (ih fun t hx => ht t (List.mem_cons_of_mem _ hx))

/-- **C157** When the core was built by matrix normalisation, feature selection and SVD only, peripheral vectors are linear
in the counts: pooling the counts of two words adds their vectors. -/
theorem C157_peripheral (env : Env) (raw core p : Space κ) (ts : List Trans) (ht : ∀ t ∈ ts, t.Linear)
    (hops : raw.ops = []) (hcore : raw.applyAll env ts = .ok core) (m : TMat ℝ) (ws : List κ)
    (d : Option (Dict κ ℤ)) (hp : Periph.new core m ws d = .ok p) (i x y : ℕ) (hi : i < m.nr) (hx : x < m.nr)
    (hy : y < m.nr) (a b : ℝ) (h : ∀ j < m.nc, m.val.get i j = a * m.val.get x j + b * m.val.get y j) :
    ∀ j, p.mat.val.get i j = a * p.mat.val.get x j + b * p.mat.val.get y j := by
  obtain ⟨h1, -⟩ := periphNew_eq_ok hp
  obtain ⟨ops, e1, e2⟩ := applyAll_remembered hcore
  rw [hops, List.nil_append] at e1
  have e : m.val.get i = fun j => a * m.val.get x j + b * m.val.get y j := by
    funext k
    by_cases hk : k < m.nc
    · exact h k hk
    · rw [m.val.get_col_oob i (not_lt.1 hk), m.val.get_col_oob x (not_lt.1 hk), m.val.get_col_oob y (not_lt.1 hk)]
      ring
  intro j
  rw [((models_projAll core.ops).eq_ok (by omega) h1).2, RowMap.out_row _ _ hi, RowMap.out_row _ _ hx,
    RowMap.out_row _ _ hy]
  beta_reduce
  split
  · rw [e, e1, opsMap_linear ht e2]
  · ring

/-- **C157** The same inside the core space. -/
theorem C157_core (env : Env) (raw core : Space κ) (ts : List Trans) (ht : ∀ t ∈ ts, t.Linear) (hops : raw.ops = [])
    (hr : 0 < raw.mat.nr) (hc : 0 < raw.mat.nc) (hts : ∀ t ∈ ts, t.Exact)
    (hsvd : ∀ pre k post s, ts = pre ++ .dimred (.svd k) :: post → raw.applyAll env pre = .ok s →
      SvdCallOk env s.mat k)
    (hcore : raw.applyAll env ts = .ok core) (i x y : ℕ) (hi : i < raw.mat.nr) (hx : x < raw.mat.nr)
    (hy : y < raw.mat.nr) (a b : ℝ)
    (h : ∀ j < raw.mat.nc, raw.mat.val.get i j = a * raw.mat.val.get x j + b * raw.mat.val.get y j) :
    ∀ j, core.mat.val.get i j = a * core.mat.val.get x j + b * core.mat.val.get y j := by
  have hR := reproduces_applyAll hops hr hc hts hsvd hcore
  obtain ⟨_, hout⟩ := (models_projAll core.ops).eq_ok hr hR.proj
  obtain ⟨ops, e1, e2⟩ := applyAll_remembered hcore
  rw [hops, List.nil_append] at e1
  have e : raw.mat.val.get i = fun j => a * raw.mat.val.get x j + b * raw.mat.val.get y j := by
    funext k
    by_cases hk : k < raw.mat.nc
    · exact h k hk
    · rw [raw.mat.val.get_col_oob i (not_lt.1 hk), raw.mat.val.get_col_oob x (not_lt.1 hk),
        raw.mat.val.get_col_oob y (not_lt.1 hk)]
      ring
  intro j
  rw [hout, RowMap.out_row _ _ hi, RowMap.out_row _ _ hx, RowMap.out_row _ _ hy]
  beta_reduce
  split
  · rw [e, e1, opsMap_linear ht e2]
  · ring

end
end Dissect
