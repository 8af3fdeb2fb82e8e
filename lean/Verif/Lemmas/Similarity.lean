import Verif.Model.Similarity
import Verif.Lemmas.Scaling

/-! # Values computed by the similarity measures on row vectors -/

namespace Dissect
open Finset

/-- Inner product of the first `n` components. -/
noncomputable def inner (n : ℕ) (u v : ℕ → ℝ) : ℝ := ∑ j ∈ range n, u j * v j

/-- Euclidean length of the first `n` components. -/
noncomputable def len2 (n : ℕ) (u : ℕ → ℝ) : ℝ := Real.sqrt (∑ j ∈ range n, u j ^ 2)

/-- The value of each measure, as computed by the code. -/
noncomputable def simVal (s : Sim) (n : ℕ) (u v : ℕ → ℝ) : ℝ :=
  match s with
  | .dot => inner n u v
  | .cos => if len2 n u = 0 ∨ len2 n v = 0 then 0 else inner n u v / (len2 n u * len2 n v)
  | .euclid => 1 / (1 + len2 n (fun j => u j - v j))
  | .lin => if ∑ j ∈ range n, u j + ∑ j ∈ range n, v j = 0 then 0 else
      (∑ j ∈ range n, if 0 < u j * v j then u j + v j else 0) / (∑ j ∈ range n, u j + ∑ j ∈ range n, v j)

/-- A `1 × n` matrix object. -/
structure IsRow (t : TMat ℝ) (n : ℕ) : Prop where
  nr : t.nr = 1
  nc : t.nc = n

theorem IsRow.val_nr {t : TMat ℝ} {n : ℕ} (h : IsRow t n) : t.val.nr = 1 := h.nr
theorem IsRow.val_nc {t : TMat ℝ} {n : ℕ} (h : IsRow t n) : t.val.nc = n := h.nc

theorem sumAll_row {t : TMat ℝ} {n : ℕ} (h : IsRow t n) : t.sumAll = ∑ j ∈ range n, t.val.get 0 j := by
  unfold TMat.sumAll Mat.total
  rw [h.val_nr, h.val_nc]
  simp

theorem norm_row {t : TMat ℝ} {n : ℕ} (h : IsRow t n) : t.norm = len2 n (t.val.get 0) := by
  unfold TMat.norm len2
  simp only [h.nr, h.nc]
  simp

theorem multiply_row {a b : TMat ℝ} {n : ℕ} (hn : 0 < n) (ha : IsRow a n) (hb : IsRow b n) (hty : a.ty = b.ty) :
    a.multiply b = .ok ⟨a.ty, a.val.had b.val⟩ := by
  unfold TMat.multiply
  rw [if_pos hty, if_pos ⟨by rw [ha.nr, hb.nr], by rw [ha.nc, hb.nc]⟩]
  exact TMat.wrap_ok (fun _ => ⟨by simp [ha.val_nr], by simp [ha.val_nc, hn]⟩)

theorem had_isRow {a b : TMat ℝ} {n : ℕ} {ty : MTy} (ha : IsRow a n) : IsRow ⟨ty, a.val.had b.val⟩ n :=
  ⟨ha.nr, ha.nc⟩

/-- The pairwise functions on row vectors of one class. -/
theorem sim1_row (s : Sim) {a b : TMat ℝ} {n : ℕ} (hn : 0 < n) (ha : IsRow a n) (hb : IsRow b n)
    (hty : a.ty = b.ty) : s.sim1 a b = .ok (simVal s n (a.val.get 0) (b.val.get 0)) := by
  have hdot : dotSim a b = .ok (inner n (a.val.get 0) (b.val.get 0)) := by
    simp only [dotSim, multiply_row hn ha hb hty, ok_bind, pure_eq_ok, sumAll_row (had_isRow ha)]
    rfl
  cases s with
  | dot => exact hdot
  | cos =>
    simp only [Sim.sim1, cosSim, simVal, norm_row ha, norm_row hb]
    split
    · rfl
    · simp only [hdot, ok_bind, pure_eq_ok]
  | euclid =>
    have hs : a.sub b = .ok ⟨a.ty, a.val.sub b.val⟩ := by
      rw [TMat.sub_same hty (by rw [ha.nr, hb.nr]) (by rw [ha.nc, hb.nc])]
      exact TMat.wrap_ok (fun _ => ⟨by simp [ha.val_nr], by simp [ha.val_nc, hn]⟩)
    have hrow : IsRow (⟨a.ty, a.val.sub b.val⟩ : TMat ℝ) n := ⟨ha.nr, ha.nc⟩
    simp only [Sim.sim1, euclidSim, hs, ok_bind, pure_eq_ok, norm_row hrow, simVal]
    congr 4
    funext j
    exact Mat.sub_get (by rw [ha.val_nr, hb.val_nr]) (by rw [ha.val_nc, hb.val_nc]) 0 j
  | lin =>
    have hadd : a.add b = .ok ⟨a.ty, a.val.add b.val⟩ := by
      rw [TMat.add_same hty (by rw [ha.nr, hb.nr]) (by rw [ha.nc, hb.nc])]
      exact TMat.wrap_ok (fun _ => ⟨by simp [ha.val_nr], by simp [ha.val_nc, hn]⟩)
    simp only [Sim.sim1, linSim, multiply_row hn ha hb hty, ok_bind, sumAll_row ha, sumAll_row hb, simVal]
    split
    · rfl
    · simp only [hadd, ok_bind]
      have h1 : IsRow (⟨a.ty, a.val.had b.val⟩ : TMat ℝ).toOnes n := ⟨ha.nr, ha.nc⟩
      have h2 : IsRow (⟨a.ty, a.val.add b.val⟩ : TMat ℝ) n := ⟨ha.nr, ha.nc⟩
      have hm := multiply_row hn h1 h2 rfl
      have hsum : (⟨(⟨a.ty, a.val.had b.val⟩ : TMat ℝ).toOnes.ty,
          (⟨a.ty, a.val.had b.val⟩ : TMat ℝ).toOnes.val.had (a.val.add b.val)⟩ : TMat ℝ).sumAll =
          ∑ j ∈ range n, if 0 < a.val.get 0 j * b.val.get 0 j then a.val.get 0 j + b.val.get 0 j else 0 := by
        have hrow : IsRow (⟨(⟨a.ty, a.val.had b.val⟩ : TMat ℝ).toOnes.ty,
          (⟨a.ty, a.val.had b.val⟩ : TMat ℝ).toOnes.val.had (a.val.add b.val)⟩ : TMat ℝ) n := ⟨ha.nr, ha.nc⟩
        rw [sumAll_row hrow]
        refine Finset.sum_congr rfl (fun j hj => ?_)
        have hj' := Finset.mem_range.1 hj
        simp only [Mat.had_get, TMat.toOnes]
        rw [Mat.map_get_lt _ _ (by simp [ha.val_nr]) (by simp [ha.val_nc, hj']),
          Mat.add_get (by rw [ha.val_nr, hb.val_nr]) (by rw [ha.val_nc, hb.val_nc])]
        by_cases h : 0 < a.val.get 0 j * b.val.get 0 j
        · rw [if_pos h]; simp [h]
        · rw [if_neg h]; simp [h]
      simp only [hm, ok_bind, pure_eq_ok]
      rw [hsum]

theorem isRow_ne {a : TMat ℝ} {n : ℕ} (hn : 0 < n) (ha : IsRow a n) : a.NE :=
  fun _ => ⟨by rw [ha.nr]; exact Nat.one_pos, by rw [ha.nc]; exact hn⟩

/-- `get_sim` on row vectors of any classes. -/
theorem getSim_row (s : Sim) {a b : TMat ℝ} {n : ℕ} (hn : 0 < n) (ha : IsRow a n) (hb : IsRow b n) :
    s.getSim a b = .ok (simVal s n (a.val.get 0) (b.val.get 0)) := by
  unfold Sim.getSim TMat.toCompatible
  rw [TMat.toType_ok a.ty (isRow_ne hn hb)]
  simp only [ok_bind]
  have hb' : IsRow (⟨a.ty, b.val⟩ : TMat ℝ) n := ⟨hb.nr, hb.nc⟩
  have hshape : a.assertSameShape ⟨a.ty, b.val⟩ = .ok () := by
    unfold TMat.assertSameShape
    rw [if_pos ⟨by rw [ha.nr]; exact hb.nr.symm, by rw [ha.nc]; exact hb.nc.symm⟩]
  rw [hshape]
  simp only [ok_bind]
  exact sim1_row s hn ha hb' rfl

theorem getSim_width (s : Sim) {a b : TMat ℝ} {n n' : ℕ} (hn' : 0 < n') (ha : IsRow a n) (hb : IsRow b n')
    (hne : n ≠ n') : s.getSim a b = .error .valueError := by
  unfold Sim.getSim TMat.toCompatible
  rw [TMat.toType_ok a.ty (isRow_ne hn' hb)]
  simp only [ok_bind]
  have hshape : a.assertSameShape ⟨a.ty, b.val⟩ = .error .valueError := by
    unfold TMat.assertSameShape
    rw [if_neg]
    rintro ⟨_, h2⟩
    rw [ha.nc] at h2
    exact hne (h2.trans hb.nc)
  rw [hshape]
  rfl

theorem simLoop_ok (s : Sim) {v m : TMat ℝ} (hv : IsRow v m.nc) (hc : 0 < m.nc) (hty : v.ty = m.ty) (is : List ℕ)
    (his : ∀ i ∈ is, i < m.nr) :
    s.simLoop v m is = .ok (is.map (fun i => simVal s m.nc (v.val.get 0) (m.val.get i))) := by
  induction is with
  | nil => rfl
  | cons i is ih =>
    have hi := his i List.mem_cons_self
    have hrow : m.getRow (i : ℤ) = .ok ⟨m.ty, m.val.row i⟩ := by
      unfold TMat.getRow
      rw [pyIdx_nat hi]
      exact TMat.wrap_ok (A := m.val.row i) (fun _ => ⟨by simp, hc⟩)
    have hr : IsRow (⟨m.ty, m.val.row i⟩ : TMat ℝ) m.nc := ⟨rfl, rfl⟩
    have hsim := sim1_row s hc hv hr hty
    simp only [Sim.simLoop, hrow, ok_bind, hsim, ih (fun k hk => his k (List.mem_cons_of_mem _ hk))]
    rfl

/-- The batched computation gives the pairwise values. -/
theorem simsToMatrix_ok (s : Sim) {v m : TMat ℝ} (hv : IsRow v m.nc) (hc : 0 < m.nc) (hr : 0 < m.nr)
    (hty : v.ty = m.ty) :
    ∃ S, s.simsToMatrix v m = .ok S ∧ S.nr = m.nr ∧ S.nc = 1 ∧
      ∀ i, i < m.nr → S.val.get i 0 = simVal s m.nc (v.val.get 0) (m.val.get i) := by
  have hdot : Sim.dotToMatrix v m = .ok ⟨m.ty, m.val.mul v.val.transpose⟩ := by
    have ht : v.transpose = .ok ⟨v.ty, v.val.transpose⟩ :=
      TMat.wrap_ok (A := v.val.transpose) (fun _ => ⟨by
        show 0 < v.val.nc
        rw [hv.val_nc]; exact hc, by
        show 0 < v.val.nr
        rw [hv.val_nr]; exact Nat.one_pos⟩)
    simp only [Sim.dotToMatrix, ht, ok_bind]
    unfold TMat.mul
    rw [if_pos hty.symm, if_pos (show m.nc = (⟨v.ty, v.val.transpose⟩ : TMat ℝ).nr from hv.nc.symm)]
    exact TMat.wrap_ok (A := m.val.mul v.val.transpose) (fun _ => ⟨hr, by
      show 0 < v.val.nr
      rw [hv.val_nr]; exact Nat.one_pos⟩)
  have hdotval : ∀ i, (m.val.mul v.val.transpose).get i 0 = inner m.nc (v.val.get 0) (m.val.get i) := by
    intro i
    simp only [Mat.mul_get, Mat.transpose_get, inner]
    exact Finset.sum_congr rfl (fun j _ => mul_comm _ _)
  cases s with
  | dot =>
    refine ⟨_, hdot, rfl, hv.val_nr, fun i _ => hdotval i⟩
  | cos =>
    simp only [Sim.simsToMatrix, hdot, ok_bind]
    have hnorms : nonzeroInvert (m.norm1.scale v.norm) = ⟨[m.nr, 1], (List.range m.nr).map
        (fun i => (Real.sqrt ((m.val.had m.val).rowSum i) * v.norm)⁻¹)⟩ := by
      unfold TMat.norm1 Arr.scale
      simp only [List.map_map]
      exact nonzeroInvert_ofFun _ _ _
    rw [hnorms]
    have := TMat.scaleRows_ofFun (⟨m.ty, m.val.mul v.val.transpose⟩ : TMat ℝ)
      (fun i => (Real.sqrt ((m.val.had m.val).rowSum i) * v.norm)⁻¹)
    have hnr : (⟨m.ty, m.val.mul v.val.transpose⟩ : TMat ℝ).nr = m.nr := rfl
    rw [hnr] at this
    rw [this]
    rw [TMat.wrap_ok (A := (m.val.mul v.val.transpose).scaleRows _) (fun _ => ⟨hr, by
      show 0 < v.val.nr
      rw [hv.val_nr]; exact Nat.one_pos⟩)]
    refine ⟨_, rfl, rfl, hv.val_nr, fun i hi => ?_⟩
    simp only [Mat.scaleRows_get, hdotval]
    have hl : Real.sqrt ((m.val.had m.val).rowSum i) = len2 m.nc (m.val.get i) := by
      unfold Mat.rowSum len2
      simp only [Mat.had_get, Mat.had_nc, pow_two]
    rw [hl, norm_row hv]
    simp only [simVal]
    split
    · rename_i h0
      rcases h0 with h0 | h0 <;> rw [h0] <;> simp
    · rw [div_eq_mul_inv, mul_comm (len2 m.nc (m.val.get i))]
      ring
  | euclid =>
    simp only [Sim.simsToMatrix, simLoop_ok .euclid hv hc hty (List.range m.nr) (fun i hi => List.mem_range.1 hi), ok_bind]
    rw [TMat.ofNumpy_ok (A := Mat.of m.nr 1 _) hr Nat.one_pos]
    refine ⟨_, rfl, rfl, rfl, fun i hi => ?_⟩
    rw [Mat.of_get_lt hi Nat.one_pos, TMat.getD_map_range _ _ hi]
  | lin =>
    simp only [Sim.simsToMatrix, simLoop_ok .lin hv hc hty (List.range m.nr) (fun i hi => List.mem_range.1 hi), ok_bind]
    rw [TMat.ofNumpy_ok (A := Mat.of m.nr 1 _) hr Nat.one_pos]
    refine ⟨_, rfl, rfl, rfl, fun i hi => ?_⟩
    rw [Mat.of_get_lt hi Nat.one_pos, TMat.getD_map_range _ _ hi]

theorem getSimsToMatrix_ok (s : Sim) {v m : TMat ℝ} (hv : IsRow v m.nc) (hc : 0 < m.nc) (hr : 0 < m.nr) :
    ∃ S, s.getSimsToMatrix v m = .ok S ∧ S.nr = m.nr ∧ S.nc = 1 ∧
      ∀ i, i < m.nr → S.val.get i 0 = simVal s m.nc (v.val.get 0) (m.val.get i) := by
  unfold Sim.getSimsToMatrix TMat.toCompatible
  rw [TMat.toType_ok v.ty (fun _ => ⟨hr, hc⟩ : m.NE)]
  simp only [ok_bind]
  rw [if_neg (by rw [hv.nc, hv.nr]; simp)]
  exact simsToMatrix_ok s (m := ⟨v.ty, m.val⟩) ⟨hv.nr, hv.nc⟩ hc hr rfl

end Dissect
