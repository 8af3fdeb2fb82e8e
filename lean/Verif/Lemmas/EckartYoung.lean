import Mathlib.Analysis.InnerProductSpace.PiL2
import Mathlib.Analysis.InnerProductSpace.Orthonormal

/-! # Best approximation in a subspace of given dimension (pure linear algebra, no model) -/

namespace Dissect
open Finset

variable {E : Type*} [NormedAddCommGroup E] [InnerProductSpace ℝ E]

/-- Distance to a member of the span of an orthonormal family. -/
theorem sq_sub_sum_inner_le {d : ℕ} {p : Fin d → E} (hp : Orthonormal ℝ p) {x y : E}
    (hy : y = ∑ j, inner ℝ (p j) y • p j) :
    ‖x‖ ^ 2 - ∑ j, (inner ℝ (p j) x) ^ 2 ≤ ‖x - y‖ ^ 2 := by
  have hb : ∑ j, ‖inner ℝ (p j) (x - y)‖ ^ 2 ≤ ‖x - y‖ ^ 2 := hp.sum_inner_products_le (x - y) (s := Finset.univ)
  have hxy : inner ℝ x y = ∑ j, inner ℝ (p j) x * inner ℝ (p j) y := by
    conv_lhs => rw [hy]
    rw [inner_sum]
    refine Finset.sum_congr rfl (fun j _ => ?_)
    rw [real_inner_smul_right, mul_comm, real_inner_comm (p j) x]
  have hyy : ‖y‖ ^ 2 = ∑ j, (inner ℝ (p j) y) ^ 2 := by
    rw [← real_inner_self_eq_norm_sq]
    conv_lhs => rw [hy]
    rw [sum_inner]
    refine Finset.sum_congr rfl (fun j _ => ?_)
    rw [real_inner_smul_left, ← hy, sq]
  have e1 : ‖x - y‖ ^ 2 = ‖x‖ ^ 2 - 2 * inner ℝ x y + ‖y‖ ^ 2 := norm_sub_sq_real x y
  have e2 : 0 ≤ ∑ j, (inner ℝ (p j) (x - y)) ^ 2 := Finset.sum_nonneg (fun j _ => sq_nonneg _)
  have e3 : ∑ j, (inner ℝ (p j) (x - y)) ^ 2 =
      ∑ j, (inner ℝ (p j) x) ^ 2 - 2 * ∑ j, inner ℝ (p j) x * inner ℝ (p j) y + ∑ j, (inner ℝ (p j) y) ^ 2 := by
    rw [Finset.mul_sum, ← Finset.sum_sub_distrib, ← Finset.sum_add_distrib]
    refine Finset.sum_congr rfl (fun j _ => ?_)
    rw [inner_sub_right]; ring
  rw [e1, hxy, hyy]
  linarith

/-- Weights in `[0, 1]` with sum at most `k` pick at most the `k` largest of decreasing numbers. -/
theorem weighted_sum_le {r k : ℕ} {t c : ℕ → ℝ} (ht : ∀ i j, i ≤ j → j < r → t j ≤ t i) (h0 : ∀ i, i < r → 0 ≤ t i)
    (hc0 : ∀ i, i < r → 0 ≤ c i) (hc1 : ∀ i, i < r → c i ≤ 1) (hs : ∑ i ∈ range r, c i ≤ k) :
    ∑ i ∈ range r, t i * c i ≤ ∑ i ∈ range (min k r), t i := by
  rcases Nat.lt_or_ge k r with hk | hk
  · rw [min_eq_left hk.le, ← Finset.sum_range_add_sum_Ico _ hk.le]
    rw [← Finset.sum_range_add_sum_Ico _ hk.le] at hs
    have h1 : ∑ i ∈ Ico k r, t i * c i ≤ t k * ∑ i ∈ Ico k r, c i := by
      rw [Finset.mul_sum]
      refine Finset.sum_le_sum (fun i hi => ?_)
      rw [Finset.mem_Ico] at hi
      exact mul_le_mul_of_nonneg_right (ht k i hi.1 hi.2) (hc0 i hi.2)
    have h2 : t k * ∑ i ∈ range k, (1 - c i) ≤ ∑ i ∈ range k, t i * (1 - c i) := by
      rw [Finset.mul_sum]
      refine Finset.sum_le_sum (fun i hi => ?_)
      rw [Finset.mem_range] at hi
      exact mul_le_mul_of_nonneg_right (ht i k hi.le hk) (by linarith [hc1 i (by omega)])
    have h3 : ∑ i ∈ range k, (1 - c i) = k - ∑ i ∈ range k, c i := by
      rw [Finset.sum_sub_distrib]; simp
    have h4 : ∑ i ∈ range k, t i * (1 - c i) = ∑ i ∈ range k, t i - ∑ i ∈ range k, t i * c i := by
      rw [← Finset.sum_sub_distrib]
      exact Finset.sum_congr rfl (fun i _ => by ring)
    have h5 : t k * ∑ i ∈ Ico k r, c i ≤ t k * (k - ∑ i ∈ range k, c i) :=
      mul_le_mul_of_nonneg_left (by linarith) (h0 k hk)
    rw [h3] at h2
    rw [h4] at h2
    linarith
  · rw [min_eq_right hk]
    refine Finset.sum_le_sum (fun i hi => ?_)
    rw [Finset.mem_range] at hi
    exact mul_le_of_le_one_right (h0 i hi) (hc1 i hi)

/-- **Eckart–Young** (Frobenius norm): rows `a`, right singular vectors `v`, singular values `s`; any rows `b` in a
subspace of dimension at most `k` are at least as far from `a` as the discarded singular values. -/
theorem eckart_young [FiniteDimensional ℝ E] {n r k : ℕ} {a b : Fin n → E} {v : Fin r → E} (hv : Orthonormal ℝ v) {s : ℕ → ℝ}
    (hs : ∀ i j, i ≤ j → j < r → s j ≤ s i) (h0 : ∀ i, i < r → 0 ≤ s i)
    (h : ∀ p : E, ∑ i, (inner ℝ (a i) p) ^ 2 = ∑ l : Fin r, s l ^ 2 * (inner ℝ (v l) p) ^ 2)
    (S : Submodule ℝ E) (hS : Module.finrank ℝ S ≤ k) (hb : ∀ i, b i ∈ S) :
    ∑ i, ‖a i‖ ^ 2 - ∑ l ∈ range (min k r), s l ^ 2 ≤ ∑ i, ‖a i - b i‖ ^ 2 := by
  set d := Module.finrank ℝ S with hd
  let q := stdOrthonormalBasis ℝ S
  let p : Fin d → E := fun j => (q j : E)
  have hp : Orthonormal ℝ p := q.orthonormal.comp_linearIsometry S.subtypeₗᵢ
  have hmem : ∀ y ∈ S, y = ∑ j, inner ℝ (p j) y • p j := by
    intro y hy
    have := congrArg (fun z : S => (z : E)) (q.sum_repr' ⟨y, hy⟩)
    simp only [Submodule.coe_sum, Submodule.coe_smul, Submodule.coe_inner] at this
    exact this.symm
  have hrow : ∀ i, ‖a i‖ ^ 2 - ∑ j, (inner ℝ (p j) (a i)) ^ 2 ≤ ‖a i - b i‖ ^ 2 :=
    fun i => sq_sub_sum_inner_le hp (hmem _ (hb i))
  have hsum := Finset.sum_le_sum (s := Finset.univ) (fun i _ => hrow i)
  rw [Finset.sum_sub_distrib, Finset.sum_comm] at hsum
  have e1 : ∑ j, ∑ i, (inner ℝ (p j) (a i)) ^ 2 = ∑ l ∈ range r, s l ^ 2 *
      (if hl : l < r then ∑ j, (inner ℝ (v ⟨l, hl⟩) (p j)) ^ 2 else 0) := by
    rw [Finset.sum_range]
    have : ∀ j, ∑ i, (inner ℝ (p j) (a i)) ^ 2 = ∑ l : Fin r, s l ^ 2 * (inner ℝ (v l) (p j)) ^ 2 := by
      intro j
      rw [← h (p j)]
      exact Finset.sum_congr rfl (fun i _ => by rw [real_inner_comm])
    rw [Finset.sum_congr rfl (fun j _ => this j), Finset.sum_comm]
    refine Finset.sum_congr rfl (fun l _ => ?_)
    rw [dif_pos l.2, Finset.mul_sum]
  have e2 : ∑ j, ∑ i, (inner ℝ (p j) (a i)) ^ 2 ≤ ∑ l ∈ range (min k r), s l ^ 2 := by
    rw [e1]
    refine weighted_sum_le (t := fun l => s l ^ 2) ?_ (fun i _ => sq_nonneg _) ?_ ?_ ?_
    · intro i j hij hj
      exact pow_le_pow_left₀ (h0 j hj) (hs i j hij hj) 2
    · intro l hl
      rw [dif_pos hl]
      exact Finset.sum_nonneg (fun j _ => sq_nonneg _)
    · intro l hl
      rw [dif_pos hl]
      have := hp.sum_inner_products_le (v ⟨l, hl⟩) (s := Finset.univ)
      rw [hv.1 ⟨l, hl⟩] at this
      simp only [Real.norm_eq_abs, sq_abs, one_pow] at this
      refine le_trans (le_of_eq (Finset.sum_congr rfl (fun j _ => ?_))) this
      rw [real_inner_comm]
    · rw [Finset.sum_range]
      have : ∀ l : Fin r, (if hl : (l : ℕ) < r then ∑ j, (inner ℝ (v ⟨l, hl⟩) (p j)) ^ 2 else 0) =
          ∑ j, (inner ℝ (v l) (p j)) ^ 2 := fun l => by rw [dif_pos l.2]
      rw [Finset.sum_congr rfl (fun l _ => this l), Finset.sum_comm]
      have hj : ∀ j ∈ (Finset.univ : Finset (Fin d)), ∑ l, (inner ℝ (v l) (p j)) ^ 2 ≤ 1 := by
        intro j _
        have := hv.sum_inner_products_le (p j) (s := Finset.univ)
        rw [hp.1 j] at this
        simpa only [Real.norm_eq_abs, sq_abs, one_pow] using this
      refine (Finset.sum_le_sum hj).trans ?_
      simp only [Finset.sum_const, Finset.card_univ, Fintype.card_fin, nsmul_eq_mul, mul_one]
      exact_mod_cast hS
  linarith

end Dissect
