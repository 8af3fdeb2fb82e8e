import Verif.Props.Similarity
import Verif.Props.Invariance
import Verif.Props.SvdBest
import Verif.Lemmas.Train
import Mathlib.Analysis.InnerProductSpace.PiL2
import Mathlib.Geometry.Euclidean.Angle.Unoriented.TriangleInequality

/-! # C158: the similarity measures describe one geometry -/

namespace Dissect
open Finset
noncomputable section
variable {κ : Type} [DecidableEq κ]

/-- The first `n` components as a vector of Mathlib's Euclidean space. -/
def toE (n : ℕ) (u : ℕ → ℝ) : EuclideanSpace ℝ (Fin n) := WithLp.toLp 2 fun k => u k

theorem toE_inner (n : ℕ) (u v : ℕ → ℝ) : Inner.inner ℝ (toE n u) (toE n v) = Dissect.inner n u v := by
  unfold Dissect.inner toE
  rw [Finset.sum_range]
  simp only [PiLp.inner_apply, RCLike.inner_apply, conj_trivial]
  exact Finset.sum_congr rfl fun k _ => mul_comm _ _

theorem toE_norm (n : ℕ) (u : ℕ → ℝ) : ‖toE n u‖ = len2 n u := by
  unfold len2 toE
  rw [EuclideanSpace.norm_eq, Finset.sum_range]
  simp

theorem toE_sub (n : ℕ) (u v : ℕ → ℝ) : toE n (fun j => u j - v j) = toE n u - toE n v := rfl

theorem simVal_cos_angle (n : ℕ) (u v : ℕ → ℝ) :
    Real.arccos (simVal .cos n u v) = InnerProductGeometry.angle (toE n u) (toE n v) := by
  unfold InnerProductGeometry.angle
  rw [toE_inner, toE_norm, toE_norm]
  simp only [simVal]
  split
  · rename_i h
    rcases h with h | h <;> simp [h]
  · rfl

theorem euclid_inv (n : ℕ) (u v : ℕ → ℝ) : 1 / simVal .euclid n u v - 1 = ‖toE n u - toE n v‖ := by
  simp only [simVal]
  rw [one_div_one_div, ← toE_norm, toE_sub]
  ring

/-- Three words, each in a space of its own (or all in one space), of the same width. -/
structure ThreeWords (A B C : Space κ) (a b c : κ) (n : ℕ) : Prop where
  wfA : A.WF
  wfB : B.WF
  wfC : C.WF
  pos : 0 < n
  ncA : A.mat.nc = n
  ncB : B.mat.nc = n
  ncC : C.mat.nc = n
  a : a ∈ A.id2row
  b : b ∈ B.id2row
  c : c ∈ C.id2row

theorem getSim_mem {A B : Space κ} (hA : A.WF) (hB : B.WF) {n : ℕ} (hn : 0 < n) (ha : A.mat.nc = n) (hb : B.mat.nc = n)
    {a b : κ} (ma : a ∈ A.id2row) (mb : b ∈ B.id2row) (sim : Sim) :
    A.getSim a b sim (some B) = .ok (simVal sim n (A.mat.val.get (A.id2row.idxOf a)) (B.mat.val.get (B.id2row.idxOf b))) := by
  rw [Space.getSim_words2 (s := A) (target := B) (space2 := some B) rfl hA hB (by omega) (by omega)
    (Space.hasWord_idxOf ma) (Space.hasWord_idxOf mb), ha]

/-- **C158** The distance `1 / score - 1` behind the Euclidean similarity obeys the triangle inequality. -/
theorem C158_triangle (A B C : Space κ) (a b c : κ) (n : ℕ) (h : ThreeWords A B C a b c n) :
    ∃ x y z, A.getSim a b .euclid (some B) = .ok x ∧ B.getSim b c .euclid (some C) = .ok y ∧
      A.getSim a c .euclid (some C) = .ok z ∧ 1 / z - 1 ≤ (1 / x - 1) + (1 / y - 1) := by
  refine ⟨_, _, _, getSim_mem h.wfA h.wfB h.pos h.ncA h.ncB h.a h.b _, getSim_mem h.wfB h.wfC h.pos h.ncB h.ncC h.b h.c _,
    getSim_mem h.wfA h.wfC h.pos h.ncA h.ncC h.a h.c _, ?_⟩
  rw [euclid_inv, euclid_inv, euclid_inv]
  exact norm_sub_le_norm_sub_add_norm_sub _ _ _

/-- **C158** The angle behind the cosine obeys the triangle inequality: two words close to a third are close to each other. -/
theorem C158_angles (A B C : Space κ) (a b c : κ) (n : ℕ) (h : ThreeWords A B C a b c n) :
    ∃ x y z, A.getSim a b .cos (some B) = .ok x ∧ B.getSim b c .cos (some C) = .ok y ∧
      A.getSim a c .cos (some C) = .ok z ∧ Real.arccos z ≤ Real.arccos x + Real.arccos y := by
  refine ⟨_, _, _, getSim_mem h.wfA h.wfB h.pos h.ncA h.ncB h.a h.b _, getSim_mem h.wfB h.wfC h.pos h.ncB h.ncC h.b h.c _,
    getSim_mem h.wfA h.wfC h.pos h.ncA h.ncC h.a h.c _, ?_⟩
  rw [simVal_cos_angle, simVal_cos_angle, simVal_cos_angle]
  exact InnerProductGeometry.angle_le_angle_add_angle _ _ _

/-- **C158** The measures determine each other: the dot products give the cosine and the Euclidean similarity, and the dot
product of two words is at most the product of their lengths. -/
theorem C158_consistent (A B : Space κ) (a b : κ) (n : ℕ) (h : ThreeWords A B B a b b n) :
    ∃ daa dab dbb x c, A.getSim a a .dot (some A) = .ok daa ∧ A.getSim a b .dot (some B) = .ok dab ∧
      B.getSim b b .dot (some B) = .ok dbb ∧ A.getSim a b .euclid (some B) = .ok x ∧ A.getSim a b .cos (some B) = .ok c ∧
      0 ≤ daa ∧ 0 ≤ dbb ∧ dab ^ 2 ≤ daa * dbb ∧ (1 / x - 1) ^ 2 = daa + dbb - 2 * dab ∧
      c * (Real.sqrt daa * Real.sqrt dbb) = dab := by
  refine ⟨_, _, _, _, _, getSim_mem h.wfA h.wfA h.pos h.ncA h.ncA h.a h.a _, getSim_mem h.wfA h.wfB h.pos h.ncA h.ncB h.a h.b _,
    getSim_mem h.wfB h.wfB h.pos h.ncB h.ncB h.b h.b _, getSim_mem h.wfA h.wfB h.pos h.ncA h.ncB h.a h.b _,
    getSim_mem h.wfA h.wfB h.pos h.ncA h.ncB h.a h.b _, ?_⟩
  generalize A.mat.val.get (A.id2row.idxOf a) = u
  generalize B.mat.val.get (B.id2row.idxOf b) = v
  rw [euclid_inv]
  have e : ∀ w, Dissect.inner n w w = ‖toE n w‖ ^ 2 := fun w => by
    rw [← toE_inner, real_inner_self_eq_norm_sq]
  simp only [simVal, e]
  rw [← toE_norm, ← toE_norm, ← toE_inner]
  refine ⟨sq_nonneg _, sq_nonneg _, ?_, ?_, ?_⟩
  · rw [← mul_pow]
    exact sq_le_sq' (neg_le_of_abs_le (abs_real_inner_le_norm _ _)) (le_of_abs_le (abs_real_inner_le_norm _ _))
  · rw [norm_sub_sq_real]
    ring
  · rw [Real.sqrt_sq (norm_nonneg _), Real.sqrt_sq (norm_nonneg _)]
    split
    · rename_i h0
      rcases h0 with h0 | h0
      · rw [norm_eq_zero] at h0
        rw [h0]
        simp
      · rw [norm_eq_zero] at h0
        rw [h0]
        simp
    · rename_i h0
      push Not at h0
      field_simp [h0.1, h0.2]

end
end Dissect
