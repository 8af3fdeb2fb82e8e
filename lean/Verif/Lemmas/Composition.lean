import Verif.Spec.Composition
import Verif.Props.Similarity
import Verif.Lemmas.MatOps

/-! # Lemmas about composition models -/

namespace Dissect
open Finset
noncomputable section
variable {κ : Type} [DecidableEq κ]

theorem Labels.contains {l : List κ} {d : Dict κ ℤ} (h : Labels l d) (w : κ) : d.contains w = decide (w ∈ l) := by
  by_cases hw : w ∈ l
  · rw [decide_eq_true hw]
    exact Dict.contains_iff.2 ((h.keys w).1 hw)
  · rw [decide_eq_false hw]
    exact Dict.not_contains_iff.2 (h.lookup_none hw)

theorem validLoop_eq (d1 d2 d3 : Option (Dict κ ℤ)) (data : List (Triple κ)) :
    validLoop d1 d2 d3 data =
      ((data.filter (fun t => knownIn d1 t.1 && knownIn d2 t.2.1 && knownIn d3 t.2.2)).map (·.1),
       (data.filter (fun t => knownIn d1 t.1 && knownIn d2 t.2.1 && knownIn d3 t.2.2)).map (·.2.1),
       (data.filter (fun t => knownIn d1 t.1 && knownIn d2 t.2.1 && knownIn d3 t.2.2)).map (·.2.2)) := by
  induction data with
  | nil => rfl
  | cons t rest ih =>
    obtain ⟨a, b, c⟩ := t
    simp only [validLoop, ih]
    by_cases h : (knownIn d1 a && knownIn d2 b && knownIn d3 c) = true
    · rw [if_pos h, List.filter_cons_of_pos (by exact h)]
      rfl
    · rw [if_neg h, List.filter_cons_of_neg (by exact h)]

theorem validData_eq (d1 d2 d3 : Option (Dict κ ℤ)) (data v : List (Triple κ))
    (hv : v = data.filter (fun t => knownIn d1 t.1 && knownIn d2 t.2.1 && knownIn d3 t.2.2)) :
    validData data d1 d2 d3 =
      if data = [] then .error .unboundLocalError
      else if v = [] then .error .valueError
      else .ok (v.map (·.1), v.map (·.2.1), v.map (·.2.2)) := by
  cases data with
  | nil => rfl
  | cons t rest =>
    rw [if_neg (by simp)]
    unfold validData
    simp only [validLoop_eq, ← hv]
    cases v with
    | nil => rfl
    | cons x xs => rfl

theorem knownTriples_eq {s1 s2 : Space κ} (h1 : s1.WF) (h2 : s2.WF) (data : List (Triple κ)) :
    knownTriples s1 s2 data =
      data.filter (fun t => knownIn (some s1.row2id) t.1 && knownIn (some s2.row2id) t.2.1 && knownIn none t.2.2) := by
  refine List.filter_congr (fun t _ => ?_)
  simp [knownIn, h1.rows.contains, h2.rows.contains, Bool.decide_and]

theorem trainTriples_eq {s1 s2 p : Space κ} (h1 : s1.WF) (h2 : s2.WF) (hp : p.WF) (data : List (Triple κ)) :
    trainTriples s1 s2 p data =
      data.filter (fun t =>
        knownIn (some s1.row2id) t.1 && knownIn (some s2.row2id) t.2.1 && knownIn (some p.row2id) t.2.2) := by
  refine List.filter_congr (fun t _ => ?_)
  simp [knownIn, h1.rows.contains, h2.rows.contains, hp.rows.contains, Bool.decide_and, Bool.and_assoc]

theorem resolve_pair {a b : TMat ℝ} (ha : 0 < a.nr ∧ 0 < a.nc) (hb : 0 < b.nr ∧ 0 < b.nc) (ty0 : MTy) :
    ∃ ty, TMat.resolveTypeConflict [a, b] (some ty0) = .ok [⟨ty, a.val⟩, ⟨ty, b.val⟩] := by
  unfold TMat.resolveTypeConflict
  split
  · refine ⟨ty0, ?_⟩
    simp only [TMat.toTypeAll, TMat.toType_ok ty0 (t := a) (fun _ => ha), TMat.toType_ok ty0 (t := b) (fun _ => hb)]
  · rename_i h
    have hty : b.ty = a.ty := by simpa [TMat.typeConflict] using h
    refine ⟨a.ty, ?_⟩
    have h2 : b = ⟨a.ty, b.val⟩ := by rw [← hty]
    rw [← h2]

theorem resolve_three {a b c : TMat ℝ} (ha : 0 < a.nr ∧ 0 < a.nc) (hb : 0 < b.nr ∧ 0 < b.nc)
    (hc : 0 < c.nr ∧ 0 < c.nc) (ty0 : MTy) :
    ∃ ty, TMat.resolveTypeConflict [a, b, c] (some ty0) = .ok [⟨ty, a.val⟩, ⟨ty, b.val⟩, ⟨ty, c.val⟩] ∧
      (c.ty = ty0 → ty = ty0) := by
  unfold TMat.resolveTypeConflict
  split
  · refine ⟨ty0, ?_, fun _ => rfl⟩
    simp only [TMat.toTypeAll, TMat.toType_ok ty0 (t := a) (fun _ => ha), TMat.toType_ok ty0 (t := b) (fun _ => hb),
      TMat.toType_ok ty0 (t := c) (fun _ => hc)]
  · rename_i h
    have hty : b.ty = a.ty ∧ c.ty = a.ty := by simpa [TMat.typeConflict] using h
    refine ⟨a.ty, ?_, fun hc => by rw [← hty.2]; exact hc⟩
    have h2 : b = ⟨a.ty, b.val⟩ := by rw [← hty.1]
    have h3 : c = ⟨a.ty, c.val⟩ := by rw [← hty.2]
    rw [← h2, ← h3]

/-- The two matrices a model is applied to. -/
theorem composeData_inputs {s1 s2 : Space κ} {args : ArgSpace κ} (c : CModel) (data : List (Triple κ))
    (hx : args.extract = .ok (s1, s2)) (h1 : s1.WF) (h2 : s2.WF) (n1 : 0 < s1.mat.nc) (n2 : 0 < s2.mat.nc)
    (hv : knownTriples s1 s2 data ≠ []) :
    ∃ ty A B, A.nr = (knownTriples s1 s2 data).length ∧ B.nr = (knownTriples s1 s2 data).length ∧
      A.nc = s1.mat.nc ∧ B.nc = s2.mat.nc ∧
      (∀ k t i, (knownTriples s1 s2 data)[k]? = some t → s1.HasWord i t.1 → A.get k = s1.mat.val.get i) ∧
      (∀ k t i, (knownTriples s1 s2 data)[k]? = some t → s2.HasWord i t.2.1 → B.get k = s2.mat.val.get i) ∧
      c.composeData data args =
        (c.compose2 ⟨ty, A⟩ ⟨ty, B⟩ >>= fun m => .ok (s1, (knownTriples s1 s2 data).map (·.2.2), m)) := by
  generalize hve : knownTriples s1 s2 data = v at *
  have hmem : ∀ t ∈ v, t.1 ∈ s1.id2row ∧ t.2.1 ∈ s2.id2row := by
    intro t ht
    rw [← hve, knownTriples, List.mem_filter] at ht
    simpa using ht.2
  have hdata : data ≠ [] := by
    rintro rfl
    exact hv hve.symm
  obtain ⟨r1, e1, _, hr1, hc1, g1⟩ := C03_get_rows s1 h1 n1 (v.map (·.1)) (by simpa using hv)
    (by intro w hw; obtain ⟨t, ht, rfl⟩ := List.mem_map.1 hw; exact (hmem t ht).1)
  obtain ⟨r2, e2, _, hr2, hc2, g2⟩ := C03_get_rows s2 h2 n2 (v.map (·.2.1)) (by simpa using hv)
    (by intro w hw; obtain ⟨t, ht, rfl⟩ := List.mem_map.1 hw; exact (hmem t ht).2)
  rw [List.length_map] at hr1 hr2
  have hpos : 0 < v.length := List.length_pos_iff.2 hv
  obtain ⟨ty, hty⟩ := resolve_pair (a := r1) (b := r2) ⟨by omega, by omega⟩ ⟨by omega, by omega⟩ .dense
  refine ⟨ty, r1.val, r2.val, hr1, hr2, hc1, hc2, ?_, ?_, ?_⟩
  · intro k t i hk hi
    funext j
    exact g1 k t.1 i (by rw [List.getElem?_map, hk]; rfl) hi j
  · intro k t i hk hi
    funext j
    exact g2 k t.2.1 i (by rw [List.getElem?_map, hk]; rfl) hi j
  · unfold CModel.composeData
    rw [hx]
    simp only [ok_bind]
    rw [validData_eq _ _ _ data v (by rw [← hve, knownTriples_eq h1 h2]), if_neg hdata, if_neg hv]
    simp only [ok_bind, e1, e2, hty]
    rfl

theorem sqrt_sq_rowSum (A : Mat ℝ) (i : ℕ) :
    Real.sqrt ((A.had A).rowSum i) * Real.sqrt ((A.had A).rowSum i) = dot A.nc (A.get i) (A.get i) := by
  refine Real.mul_self_sqrt ?_
  exact Finset.sum_nonneg (fun j _ => mul_self_nonneg _)

theorem norm1_sq (t : TMat ℝ) :
    t.norm1.mul t.norm1 = ⟨[t.nr, 1], (List.range t.nr).map (fun i => dot t.nc (t.val.get i) (t.val.get i))⟩ := by
  unfold TMat.norm1 Arr.mul
  simp only [List.zipWith_self, List.map_map]
  congr 1
  exact List.map_congr_left (fun i _ => sqrt_sq_rowSum _ _)

/-- What `_compose` computes, row by row. -/
theorem compose2_ok (c : CModel) {ty : MTy} {A B : Mat ℝ} {w : ℕ} (hr : A.nr = B.nr) (hpos : 0 < A.nr)
    (hf : c.Fits A.nc B.nc w) :
    ∃ M : Mat ℝ, c.compose2 ⟨ty, A⟩ ⟨ty, B⟩ = .ok ⟨ty, M⟩ ∧ M.nr = A.nr ∧ M.nc = w ∧
      ∀ k, k < A.nr → ∀ j, j < w → M.get k j = c.vec A.nc B.nc (A.get k) (B.get k) j := by
  obtain ⟨f1, f2, f3, hf⟩ := hf
  cases c with
  | weighted a b =>
    obtain ⟨hn, rfl⟩ := hf
    refine ⟨(A.smul a).add (B.smul b), ?_, rfl, rfl, ?_⟩
    · simp only [CModel.compose2, CModel.composeWeighted]
      rw [TMat.mulScalar_ok a hpos f1, TMat.mulScalar_ok b (s := ⟨ty, B⟩) (show 0 < B.nr from hr ▸ hpos) f2]
      simp only [ok_bind]
      exact TMat.add_ok rfl hr hn hpos f1
    · intro k _ j _
      rw [Mat.add_get (by simpa using hr) (by simpa using hn)]
      rfl
  | dilation l =>
    obtain ⟨hn, rfl⟩ := hf
    refine ⟨((A.scaleRows (A.had B).rowSum).smul (l - 1)).add
      (B.scaleRows (fun i => dot A.nc (A.get i) (A.get i))), ?_, rfl, rfl, ?_⟩
    · simp only [CModel.compose2, CModel.composeDilation]
      rw [TMat.multiply_ok (s := ⟨ty, A⟩) (t := ⟨ty, B⟩) rfl hr hn hpos f1, norm1_sq]
      simp only [ok_bind]
      have e1 := TMat.scaleRows_ofFun (⟨ty, A⟩ : TMat ℝ) (A.had B).rowSum
      have e2 := TMat.scaleRows_ofFun (⟨ty, B⟩ : TMat ℝ) (fun i => dot A.nc (A.get i) (A.get i))
      have e3 : (⟨ty, A.had B⟩ : TMat ℝ).sum1 = ⟨[A.nr, 1], (List.range A.nr).map (A.had B).rowSum⟩ := rfl
      rw [e3, show (⟨[A.nr, 1], (List.range A.nr).map (A.had B).rowSum⟩ : Arr ℝ) =
        ⟨[(⟨ty, A⟩ : TMat ℝ).nr, 1], (List.range (⟨ty, A⟩ : TMat ℝ).nr).map (A.had B).rowSum⟩ from rfl, e1,
        TMat.wrap_ok_pos (A := A.scaleRows (A.had B).rowSum) hpos f1]
      simp only [TMat.nr, TMat.nc, ok_bind] at e2 ⊢
      rw [hr, e2, TMat.wrap_ok_pos (by simp; omega) (by simpa using f2)]
      simp only [ok_bind]
      rw [TMat.mulScalar_ok (l - 1) (s := ⟨ty, A.scaleRows (A.had B).rowSum⟩) hpos f1]
      simp only [ok_bind]
      exact TMat.add_ok rfl hr hn hpos f1
    · intro k _ j _
      rw [Mat.add_get (by simpa using hr) (by simpa using hn)]
      simp only [Mat.smul_get, Mat.scaleRows_get, CModel.vec, dilationVec]
      have : (A.had B).rowSum k = dot A.nc (A.get k) (B.get k) := rfl
      rw [this]; ring
  | multiplicative =>
    obtain ⟨hn, rfl⟩ := hf
    exact ⟨A.had B, TMat.multiply_ok rfl hr hn hpos f1, rfl, rfl, fun _ _ _ _ => rfl⟩
  | fullAdditive at_ bt i l =>
    match at_, bt, hf with
    | some P, some Q, hf =>
      obtain ⟨p1, q1, p2, q2⟩ := hf
      have hq : 0 < Q.nr := by rw [q1]; split <;> omega
      obtain ⟨ty', hty, hc⟩ := resolve_three (a := P) (b := Q) (c := ⟨ty, A⟩) ⟨by omega, by omega⟩
        ⟨hq, by omega⟩ ⟨hpos, f1⟩ ty
      obtain rfl := hc rfl
      have hmul1 : (⟨ty', A⟩ : TMat ℝ).mul ⟨ty', P.val⟩ = .ok ⟨ty', A.mul P.val⟩ :=
        TMat.mul_ok rfl p1.symm hpos (show 0 < P.nc by omega)
      have hB : 0 < B.nr := hr ▸ hpos
      have g1 : ∀ k j, (A.mul P.val).get k j = dot A.nc (fun k => P.val.get k j) (A.get k) := by
        intro k j
        simp only [Mat.mul_get, dot]
        exact Finset.sum_congr rfl (fun _ _ => mul_comm _ _)
      cases i with
      | false =>
        simp only [Bool.false_eq_true, if_false] at q1
        have hmul2 : (⟨ty', B⟩ : TMat ℝ).mul ⟨ty', Q.val⟩ = .ok ⟨ty', B.mul Q.val⟩ :=
          TMat.mul_ok rfl q1.symm hB (show 0 < Q.nc by omega)
        refine ⟨(A.mul P.val).add (B.mul Q.val), ?_, rfl, p2, ?_⟩
        · simp only [CModel.compose2, CModel.composeFull, hty, ok_bind, hmul1, Bool.false_eq_true, if_false, hmul2]
          exact TMat.add_ok rfl hr (show P.nc = Q.nc by omega) hpos (show 0 < P.nc by omega)
        · intro k _ j _
          have hcc : P.val.nc = Q.val.nc := by rw [show P.val.nc = w from p2, show Q.val.nc = w from q2]
          rw [Mat.add_get (by simpa using hr) (by simpa using hcc), g1]
          simp only [CModel.vec, affineVec, Bool.false_eq_true, if_false, add_zero]
          congr 1
          simp only [Mat.mul_get, dot]
          exact Finset.sum_congr rfl (fun _ _ => mul_comm _ _)
      | true =>
        simp only [if_true] at q1
        have hpad : (⟨ty', B⟩ : TMat ℝ).padd 1 1 = .ok ⟨ty', B.hstack (Mat.const B.nr 1 1)⟩ := by
          unfold TMat.padd
          rw [if_neg (by decide), if_pos rfl, TMat.ofNumpy_ok (A := Mat.const B.nr 1 (1:ℝ)) hB (by simp [Mat.const])]
          exact TMat.hstack_ok (s := ⟨ty', B⟩) (t := ⟨ty', Mat.const B.nr 1 1⟩) rfl rfl hB (show 0 < B.nc + 1 by omega)
        have hmul2 : (⟨ty', B.hstack (Mat.const B.nr 1 1)⟩ : TMat ℝ).mul ⟨ty', Q.val⟩ =
            .ok ⟨ty', (B.hstack (Mat.const B.nr 1 1)).mul Q.val⟩ :=
          TMat.mul_ok rfl (show B.nc + 1 = Q.nr by omega) hB (show 0 < Q.nc by omega)
        refine ⟨(A.mul P.val).add ((B.hstack (Mat.const B.nr 1 1)).mul Q.val), ?_, rfl, p2, ?_⟩
        · simp only [CModel.compose2, CModel.composeFull, hty, ok_bind, hmul1, if_true, hpad, hmul2]
          exact TMat.add_ok rfl hr (show P.nc = Q.nc by omega) hpos (show 0 < P.nc by omega)
        · intro k hk j _
          have hcc : P.val.nc = Q.val.nc := by rw [show P.val.nc = w from p2, show Q.val.nc = w from q2]
          rw [Mat.add_get (by simpa using hr) (by simpa using hcc), g1]
          simp only [CModel.vec, affineVec, if_true, add_assoc]
          congr 1
          simp only [Mat.mul_get, dot, Mat.hstack_nc]
          rw [show B.nc + (Mat.const B.nr 1 (1:ℝ)).nc = B.nc + 1 from rfl, Finset.sum_range_succ]
          congr 1
          · refine Finset.sum_congr rfl (fun x hx => ?_)
            rw [Mat.hstack_get (show B.nr = (Mat.const B.nr 1 (1:ℝ)).nr from rfl), if_pos (Finset.mem_range.1 hx), mul_comm]
          · rw [Mat.hstack_get (show B.nr = (Mat.const B.nr 1 (1:ℝ)).nr from rfl), if_neg (by omega), Nat.sub_self]
            unfold Mat.const
            rw [Mat.of_get_lt (by omega) (by omega), one_mul]

end
end Dissect
