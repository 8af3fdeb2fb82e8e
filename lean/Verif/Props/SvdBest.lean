import Verif.Props.Svd
import Verif.Lemmas.EckartYoung
import Verif.Props.Peripheral
import Verif.Props.Similarity

/-! # What an SVD reduction keeps (C99, C100) -/

namespace Dissect
open Finset
noncomputable section

/-- A vector of length `m` given by its components. -/
def evec (m : ℕ) (f : ℕ → ℝ) : EuclideanSpace ℝ (Fin m) := WithLp.toLp 2 (fun j : Fin m => f j)

theorem evec_inner (m : ℕ) (f g : ℕ → ℝ) : Inner.inner ℝ (evec m f) (evec m g) = ∑ j ∈ range m, f j * g j := by
  rw [Finset.sum_range, PiLp.inner_apply]
  refine Finset.sum_congr rfl (fun j _ => ?_)
  simp [evec, mul_comm]

theorem evec_norm (m : ℕ) (f : ℕ → ℝ) : ‖evec m f‖ ^ 2 = ∑ j ∈ range m, f j ^ 2 := by
  rw [← real_inner_self_eq_norm_sq, evec_inner]
  exact Finset.sum_congr rfl (fun j _ => by ring)

theorem evec_sub (m : ℕ) (f g : ℕ → ℝ) : evec m f - evec m g = evec m (fun j => f j - g j) := rfl

theorem evec_surj {m : ℕ} (p : EuclideanSpace ℝ (Fin m)) : ∃ f, p = evec m f := by
  refine ⟨fun j => if h : j < m then p ⟨j, h⟩ else 0, ?_⟩
  ext j
  simp [evec]

/-- Pythagoras for a combination of orthonormal rows. -/
theorem orth_combination {vt : Mat ℝ} {m r : ℕ} (hv : ∀ k l, k < r → l < r →
    ∑ j ∈ range m, vt.get k j * vt.get l j = if k = l then 1 else 0) {I : Finset ℕ} (hI : ∀ l ∈ I, l < r) (c : ℕ → ℝ) :
    ∑ j ∈ range m, (∑ l ∈ I, c l * vt.get l j) ^ 2 = ∑ l ∈ I, c l ^ 2 := by
  have e : ∀ j ∈ range m, (∑ l ∈ I, c l * vt.get l j) ^ 2 =
      ∑ l ∈ I, ∑ k ∈ I, c l * c k * (vt.get l j * vt.get k j) := by
    intro j _
    rw [sq, Finset.sum_mul_sum]
    exact Finset.sum_congr rfl (fun l _ => Finset.sum_congr rfl (fun k _ => by ring))
  rw [Finset.sum_congr rfl e, Finset.sum_comm]
  refine Finset.sum_congr rfl (fun l hl => ?_)
  rw [Finset.sum_comm]
  have e2 : ∀ k ∈ I, ∑ j ∈ range m, c l * c k * (vt.get l j * vt.get k j) = if l = k then c l ^ 2 else 0 := by
    intro k hk
    rw [← Finset.mul_sum, hv l k (hI l hl) (hI k hk)]
    split
    · rename_i h; rw [h]; ring
    · ring
  rw [Finset.sum_congr rfl e2, Finset.sum_ite_eq I l]
  simp [hl]

/-- The error of the truncation is the sum of the squares of the dropped singular values. -/
theorem truncation_error {A u : Mat ℝ} {s : List ℝ} {vt : Mat ℝ} {n : ℕ} {red V : Mat ℝ} (h : IsSvd A u s vt)
    (hn : n ≤ s.length) (ht : Truncation A u s vt n red V) :
    ∑ i ∈ range A.nr, ∑ j ∈ range A.nc, (A.get i j - (red.mul V.transpose).get i j) ^ 2 =
      ∑ l ∈ Ico n s.length, s.getD l 0 ^ 2 := by
  obtain ⟨σ, hσ, h1, h2⟩ := ht.signed
  have e : ∀ i ∈ range A.nr, ∑ j ∈ range A.nc, (A.get i j - (red.mul V.transpose).get i j) ^ 2 =
      ∑ l ∈ Ico n s.length, (u.get i l * s.getD l 0) ^ 2 := by
    intro i hi
    rw [Finset.mem_range] at hi
    rw [← orth_combination (vt := vt) (m := A.nc) (r := s.length) h.vOrth (I := Ico n s.length)
      (fun l hl => (Finset.mem_Ico.1 hl).2)]
    refine Finset.sum_congr rfl (fun j hj => ?_)
    rw [Finset.mem_range] at hj
    congr 1
    rw [h.factor i j hi hj, ← Finset.sum_range_add_sum_Ico _ hn, Mat.mul_get, ht.redCols]
    have e2 : ∀ l ∈ range n, red.get i l * V.transpose.get l j = u.get i l * s.getD l 0 * vt.get l j := by
      intro l hl
      rw [Finset.mem_range] at hl
      rw [Mat.transpose_get, h1 i l hi hl, h2 j l hj hl]
      rw [show σ * u.get i l * s.getD l 0 * (σ * vt.get l j) = (σ * σ) * (u.get i l * s.getD l 0 * vt.get l j) by ring,
        hσ, one_mul]
    rw [Finset.sum_congr rfl e2, add_sub_cancel_left]
  rw [Finset.sum_congr rfl e, Finset.sum_comm]
  refine Finset.sum_congr rfl (fun l hl => ?_)
  have hl' := (Finset.mem_Ico.1 hl).2
  have := h.uOrth l l hl' hl'
  simp only [if_true] at this
  have e3 : ∀ i ∈ range A.nr, (u.get i l * s.getD l 0) ^ 2 = s.getD l 0 ^ 2 * (u.get i l * u.get i l) :=
    fun i _ => by ring
  rw [Finset.sum_congr rfl e3, ← Finset.mul_sum, this, mul_one]

/-- No product of an `n × k` and a `k × m` matrix is closer than the sum of the squares of all but the `k` largest
singular values. -/
theorem rank_error {A u : Mat ℝ} {s : List ℝ} {vt : Mat ℝ} (h : IsSvd A u s vt) {k : ℕ} (W H : Mat ℝ)
    (hW : W.nc = H.nr) (hH : H.nr ≤ k) :
    ∑ l ∈ Ico (min k s.length) s.length, s.getD l 0 ^ 2 ≤
      ∑ i ∈ range A.nr, ∑ j ∈ range A.nc, (A.get i j - (W.mul H).get i j) ^ 2 := by
  let a : Fin A.nr → EuclideanSpace ℝ (Fin A.nc) := fun i => evec A.nc (fun j => A.get i j)
  let b : Fin A.nr → EuclideanSpace ℝ (Fin A.nc) := fun i => evec A.nc (fun j => (W.mul H).get i j)
  let v : Fin s.length → EuclideanSpace ℝ (Fin A.nc) := fun l => evec A.nc (fun j => vt.get l j)
  let g : Fin H.nr → EuclideanSpace ℝ (Fin A.nc) := fun l => evec A.nc (fun j => H.get l j)
  have hv : Orthonormal ℝ v := by
    rw [orthonormal_iff_ite]
    intro k l
    rw [evec_inner, h.vOrth k l k.2 l.2]
    simp [Fin.ext_iff]
  have hdec : ∀ i j, i ≤ j → j < s.length → s.getD j 0 ≤ s.getD i 0 := by
    intro i j hij hj
    rcases Nat.lt_or_ge i j with hlt | hge
    · have := List.pairwise_iff_getElem.1 h.sorted i j (by omega) hj hlt
      simpa [List.getD, hj, show i < s.length by omega] using this
    · rw [show i = j by omega]
  have h0 : ∀ i, i < s.length → 0 ≤ s.getD i 0 := by
    intro i hi
    rw [List.getD, List.getElem?_eq_getElem hi]
    exact h.nonneg _ (List.getElem_mem hi)
  have hfac : ∀ p : EuclideanSpace ℝ (Fin A.nc),
      ∑ i, (Inner.inner ℝ (a i) p) ^ 2 = ∑ l : Fin s.length, s.getD l 0 ^ 2 * (Inner.inner ℝ (v l) p) ^ 2 := by
    intro p
    obtain ⟨f, rfl⟩ := evec_surj p
    have e1 : ∀ i : Fin A.nr, Inner.inner ℝ (a i) (evec A.nc f) =
        ∑ l ∈ range s.length, (s.getD l 0 * ∑ j ∈ range A.nc, vt.get l j * f j) * u.get i l := by
      intro i
      rw [evec_inner]
      have e : ∀ j ∈ range A.nc, A.get i j * f j = ∑ l ∈ range s.length, u.get i l * s.getD l 0 * (vt.get l j * f j) := by
        intro j hj
        rw [h.factor i j i.2 (Finset.mem_range.1 hj), Finset.sum_mul]
        exact Finset.sum_congr rfl (fun l _ => by ring)
      rw [Finset.sum_congr rfl e, Finset.sum_comm]
      refine Finset.sum_congr rfl (fun l _ => ?_)
      rw [← Finset.mul_sum]; ring
    have e2 : ∑ i : Fin A.nr, (Inner.inner ℝ (a i) (evec A.nc f)) ^ 2 =
        ∑ i ∈ range A.nr, (∑ l ∈ range s.length, (s.getD l 0 * ∑ j ∈ range A.nc, vt.get l j * f j) * u.transpose.get l i) ^ 2 := by
      rw [Finset.sum_range]
      exact Finset.sum_congr rfl (fun i _ => by rw [e1 i]; rfl)
    rw [e2, orth_combination (vt := u.transpose) (m := A.nr) (r := s.length) h.uOrth (fun l hl => Finset.mem_range.1 hl),
      Finset.sum_range]
    refine Finset.sum_congr rfl (fun l _ => ?_)
    rw [evec_inner, mul_pow]
  let S := Submodule.span ℝ (Set.range g)
  have hS : Module.finrank ℝ S ≤ k := (finrank_range_le_card (R := ℝ) g).trans (by simpa using hH)
  have hb : ∀ i, b i ∈ S := by
    intro i
    have : b i = ∑ l : Fin H.nr, W.get i l • g l := by
      ext j
      simp only [b, evec, Mat.mul_get, hW]
      rw [WithLp.ofLp_sum, Finset.sum_apply, Finset.sum_range]
      rfl
    rw [this]
    exact Submodule.sum_mem _ (fun l _ => Submodule.smul_mem _ _ (Submodule.subset_span ⟨l, rfl⟩))
  have key := eckart_young hv (s := fun l => s.getD l 0) hdec h0 hfac S hS hb
  have e3 : ∑ i, ‖a i‖ ^ 2 = ∑ l ∈ range s.length, s.getD l 0 ^ 2 := by
    have : ∑ i, ‖a i‖ ^ 2 = ∑ i ∈ range A.nr, ∑ l ∈ range s.length, s.getD l 0 ^ 2 * (u.get i l * u.get i l) := by
      rw [Finset.sum_range]
      refine Finset.sum_congr rfl (fun i _ => ?_)
      rw [evec_norm, ← gram_rows h i.2 i.2]
      exact Finset.sum_congr rfl (fun j _ => by ring)
    rw [this, Finset.sum_comm]
    refine Finset.sum_congr rfl (fun l hl => ?_)
    have := h.uOrth l l (Finset.mem_range.1 hl) (Finset.mem_range.1 hl)
    simp only [if_true] at this
    rw [← Finset.mul_sum, this, mul_one]
  have e4 : ∑ i, ‖a i - b i‖ ^ 2 = ∑ i ∈ range A.nr, ∑ j ∈ range A.nc, (A.get i j - (W.mul H).get i j) ^ 2 := by
    rw [Finset.sum_range]
    refine Finset.sum_congr rfl (fun i _ => ?_)
    rw [evec_sub, evec_norm]
  rw [e3, e4, ← Finset.sum_range_add_sum_Ico _ (Nat.min_le_right k s.length)] at key
  linarith

/-! ## C99 -/

/-- Squared distance between a matrix and a product of two matrices (sum over all entries). -/
def sqDist (A W H : Mat ℝ) : ℝ :=
  ∑ i ∈ range A.nr, ∑ j ∈ range A.nc, (A.get i j - ∑ l ∈ range W.nc, W.get i l * H.get l j) ^ 2

/-- **C99** (dense) the vectors reduced to `k` dimensions, expanded again with the transformation matrix, are at
least as close to the original matrix as any product of an `n × d` and a `d × m` matrix with `d ≤ k`, up to the singular values
below the tolerance 1e-12 that the code drops; exactly when there are none strictly between 0 and it. -/
theorem C99_dense (env : Env) (m : TMat ℝ) (k : ℕ) (u : Mat ℝ) (s : List ℝ) (vt : Mat ℝ) (hty : m.ty = .dense)
    (hr : 0 < m.nr) (hc : 0 < m.nc) (hk : 0 < k) (he : env.npSvd m.val = .ok (u, s, vt)) (hsvd : IsSvd m.val u s vt)
    (hrank : ∃ x ∈ s, svdTol < x) :
    ∃ red V, (DimRedT.svd k).apply env m = .ok (red, V) ∧ ∀ W H : Mat ℝ, W.nc = H.nr → H.nr ≤ k →
      sqDist m.val red.val V.val.transpose ≤ sqDist m.val W H + s.length * (1 / 10 ^ 12) ^ 2 ∧
      ((∀ x ∈ s, x ≤ svdTol → x = 0) → sqDist m.val red.val V.val.transpose ≤ sqDist m.val W H) := by
  obtain ⟨red, V, hap, _, _, _, _, _, htr⟩ := C21_dense env m k u s vt hty hr hc hk he hsvd hrank
  refine ⟨red, V, hap, fun W H hW hH => ?_⟩
  have hrl := numRank_le s
  have e1 := truncation_error hsvd (by omega) htr
  have e2 := rank_error hsvd W H hW hH
  change sqDist m.val red.val V.val.transpose = _ at e1
  change _ ≤ sqDist m.val W H at e2
  rw [e1]
  have hsplit : ∑ l ∈ Ico (min k (numRank s)) s.length, s.getD l 0 ^ 2 =
      ∑ l ∈ Ico (min k (numRank s)) (min k s.length), s.getD l 0 ^ 2 +
      ∑ l ∈ Ico (min k s.length) s.length, s.getD l 0 ^ 2 :=
    (Finset.sum_Ico_consecutive _ (by omega) (by omega)).symm
  have hmem : ∀ l ∈ Ico (min k (numRank s)) (min k s.length), l < s.length ∧ 0 ≤ s.getD l 0 ∧ s.getD l 0 ≤ svdTol ∧
      s.getD l 0 ∈ s := by
    intro l hl
    rw [Finset.mem_Ico] at hl
    have hl2 : l < s.length := by omega
    have hm : s.getD l 0 ∈ s := by
      rw [List.getD, List.getElem?_eq_getElem hl2]
      exact List.getElem_mem hl2
    exact ⟨hl2, hsvd.nonneg _ hm, sorted_filter hsvd.sorted (by omega) hl2, hm⟩
  rw [hsplit]
  constructor
  · have : ∑ l ∈ Ico (min k (numRank s)) (min k s.length), s.getD l 0 ^ 2 ≤ s.length * (1 / 10 ^ 12) ^ 2 := by
      calc ∑ l ∈ Ico (min k (numRank s)) (min k s.length), s.getD l 0 ^ 2
          ≤ ∑ l ∈ Ico (min k (numRank s)) (min k s.length), (1 / 10 ^ 12 : ℝ) ^ 2 :=
            Finset.sum_le_sum (fun l hl => pow_le_pow_left₀ (hmem l hl).2.1 (hmem l hl).2.2.1 2)
        _ ≤ _ := by
            rw [Finset.sum_const, Nat.card_Ico, nsmul_eq_mul]
            refine mul_le_mul_of_nonneg_right ?_ (by positivity)
            exact_mod_cast (show min k s.length - min k (numRank s) ≤ s.length by omega)
    linarith
  · intro hz
    have : ∑ l ∈ Ico (min k (numRank s)) (min k s.length), s.getD l 0 ^ 2 = 0 := by
      refine Finset.sum_eq_zero (fun l hl => ?_)
      rw [hz _ (hmem l hl).2.2.2 (hmem l hl).2.2.1]; norm_num
    linarith

theorem TopTriples.singular {A u : Mat ℝ} {k : ℕ} {s : List ℝ} {vt : Mat ℝ} (h : TopTriples A k u s vt) :
    SingularTriples A u s vt := by
  obtain ⟨h1, h2, h3, h4, U, S, VT, hsvd, hlen, hsame, _⟩ := h
  have htr := hsvd.triples
  refine ⟨h1, h2, h3, h4, ?_, ?_, ?_, ?_, ?_⟩
  · intro k l hk hl
    rw [← htr.uOrth k l (by omega) (by omega)]
    refine Finset.sum_congr rfl (fun i hi => ?_)
    rw [(hsame k hk).2.1 i (Finset.mem_range.1 hi), (hsame l hl).2.1 i (Finset.mem_range.1 hi)]
  · intro k l hk hl
    rw [← htr.vOrth k l (by omega) (by omega)]
    refine Finset.sum_congr rfl (fun i hi => ?_)
    rw [(hsame k hk).2.2 i (Finset.mem_range.1 hi), (hsame l hl).2.2 i (Finset.mem_range.1 hi)]
  · intro x hx
    obtain ⟨l, hl, rfl⟩ := List.mem_iff_getElem.1 hx
    have e := (hsame l hl).1
    rw [List.getD, List.getElem?_eq_getElem hl, List.getD, List.getElem?_eq_getElem (by omega)] at e
    simp only [Option.getD_some] at e
    rw [e]
    exact htr.nonneg _ (List.getElem_mem _)
  · rw [List.pairwise_iff_getElem]
    intro i j hi hj hij
    have ei := (hsame i hi).1
    have ej := (hsame j hj).1
    rw [List.getD, List.getElem?_eq_getElem hi, List.getD, List.getElem?_eq_getElem (by omega)] at ei
    rw [List.getD, List.getElem?_eq_getElem hj, List.getD, List.getElem?_eq_getElem (by omega)] at ej
    simp only [Option.getD_some] at ei ej
    rw [ei, ej]
    exact List.pairwise_iff_getElem.1 htr.sorted i j (by omega) (by omega) hij
  · intro i k hi hk
    rw [(hsame k hk).1, (hsame k hk).2.1 i hi, ← htr.triple i k hi (by omega)]
    exact Finset.sum_congr rfl (fun j hj => by rw [(hsame k hk).2.2 j (Finset.mem_range.1 hj)])

/-- **C99** (sparse) the same, exactly, when the sparse back end returns the largest `k + k/10` singular triples it is
asked for. -/
theorem C99_sparse (env : Env) (m : TMat ℝ) (k : ℕ) (ut : Mat ℝ) (s : List ℝ) (vt : Mat ℝ) (hty : m.ty = .sparse)
    (hr : 0 < m.nr) (hc : 0 < m.nc) (hk : 0 < k) (he : env.sparseSvd m.val (k + k / 10) = .ok (ut, s, vt))
    (htop : TopTriples m.val (k + k / 10) ut.transpose s vt) (hpos : 0 < s.length) :
    ∃ red V, (DimRedT.svd k).apply env m = .ok (red, V) ∧ ∀ W H : Mat ℝ, W.nc = H.nr → H.nr ≤ k →
      sqDist m.val red.val V.val.transpose ≤ sqDist m.val W H := by
  obtain ⟨red, V, hap, _, _, _, _, htr⟩ := C21_sparse env m k ut s vt hty hr hc hk he htop.singular hpos
  refine ⟨red, V, hap, fun W H hW hH => ?_⟩
  obtain ⟨_, _, _, _, U, S, VT, hsvd, hlen, hsame, hrest⟩ := htop
  have htr' : Truncation m.val U S VT (min k s.length) red.val V.val := by
    obtain ⟨a1, a2, a3, a4, σ, hσ, b1, b2⟩ := htr
    refine ⟨a1, a2, a3, a4, σ, hσ, ?_, ?_⟩
    · intro i j hi hj
      rw [b1 i j hi hj, (hsame j (by omega)).1, (hsame j (by omega)).2.1 i hi]
    · intro i j hi hj
      rw [b2 i j hi hj, (hsame j (by omega)).2.2 i hi]
  have e1 := truncation_error hsvd (by omega) htr'
  have e2 := rank_error hsvd W H hW hH
  change sqDist m.val red.val V.val.transpose = _ at e1
  change _ ≤ sqDist m.val W H at e2
  rw [e1]
  refine le_trans (le_of_eq ?_) e2
  have hsplit : ∑ l ∈ Ico (min k s.length) S.length, S.getD l 0 ^ 2 =
      ∑ l ∈ Ico (min k s.length) (min k S.length), S.getD l 0 ^ 2 +
      ∑ l ∈ Ico (min k S.length) S.length, S.getD l 0 ^ 2 :=
    (Finset.sum_Ico_consecutive _ (by omega) (by omega)).symm
  have h0 : ∑ l ∈ Ico (min k s.length) (min k S.length), S.getD l 0 ^ 2 = 0 := by
    refine Finset.sum_eq_zero (fun l hl => ?_)
    rw [Finset.mem_Ico] at hl
    rw [hrest (by omega) l (by omega) (by omega)]; norm_num
  rw [hsplit, h0, zero_add]

/-- Non-vacuity of C99, dense: `diag(3, 2)` reduced to one dimension (where it does lose something: 2² = 4). -/
example : ∃ red V, (DimRedT.svd 1).apply exEnv ⟨.dense, exDiag⟩ = .ok (red, V) ∧
    ∀ W H : Mat ℝ, W.nc = H.nr → H.nr ≤ 1 → sqDist exDiag red.val V.val.transpose ≤ sqDist exDiag W H := by
  obtain ⟨red, V, h1, h2⟩ := C99_dense exEnv ⟨.dense, exDiag⟩ 1 exOne [3, 2] exOne rfl (by simp [exDiag, TMat.nr])
    (by simp [exDiag, TMat.nc]) (by norm_num) rfl ex_isSvd ⟨3, by simp, by norm_num [svdTol]⟩
  refine ⟨red, V, h1, fun W H hW hH => (h2 W H hW hH).2 ?_⟩
  intro x hx hle
  simp only [List.mem_cons, List.not_mem_nil, or_false] at hx
  rcases hx with rfl | rfl <;> norm_num [svdTol] at hle

theorem ex_top : TopTriples exDiag 1 exOne.transpose [3, 2] exOne := by
  refine ⟨rfl, rfl, rfl, rfl, exOne, [3, 2], exOne, ex_isSvd, le_refl _, ?_, ?_⟩
  · intro l hl
    refine ⟨rfl, fun i _ => ?_, fun _ _ => rfl⟩
    rw [Mat.transpose_get]
    simp only [exOne, Mat.of_get, eq_comm]
    by_cases h : l = i
    · subst h; simp
    · simp [h, and_comm]
  · intro h; simp at h

/-- Non-vacuity of C99, sparse. -/
example : ∃ red V, (DimRedT.svd 1).apply exEnv ⟨.sparse, exDiag⟩ = .ok (red, V) ∧
    ∀ W H : Mat ℝ, W.nc = H.nr → H.nr ≤ 1 → sqDist exDiag red.val V.val.transpose ≤ sqDist exDiag W H :=
  C99_sparse exEnv ⟨.sparse, exDiag⟩ 1 exOne [3, 2] exOne rfl (by simp [exDiag, TMat.nr])
    (by simp [exDiag, TMat.nc]) (by norm_num) rfl ex_top (by simp)

/-! ## C100 -/

variable {κ : Type} [DecidableEq κ]

/-- `Svd(k)` on a matrix, whichever routine is called, keeps the first singular triples. -/
theorem svd_apply_truncation {env : Env} {m r0 tm : TMat ℝ} {k : ℕ} (hk : 0 < k) (hr : 0 < m.nr) (hc : 0 < m.nc)
    (hs : SvdCallOk env m k) (h : (DimRedT.svd k).apply env m = .ok (r0, tm)) :
    ∃ u s vt n, SingularTriples m.val u s vt ∧ n ≤ s.length ∧ 0 < n ∧ Truncation m.val u s vt n r0.val tm.val := by
  cases hty : m.ty with
  | dense =>
    rw [SvdCallOk, hty] at hs
    simp only at hs
    obtain ⟨u, s, vt, he⟩ := svd_returned hty h
    replace hs := hs u s vt he
    by_cases hrank : ∃ x ∈ s, svdTol < x
    · obtain ⟨red, V, h1, _, h3, h4, _, _, ht⟩ := C21_dense env m k _ _ _ hty hr hc hk he hs hrank
      rw [h] at h1
      have := ok_inj h1
      simp only [Prod.mk.injEq] at this
      obtain ⟨rfl, rfl⟩ := this
      have := numRank_le s
      exact ⟨_, _, _, _, hs.triples, (Nat.min_le_right _ _).trans this, by rw [h3] at h4; exact h4, ht⟩
    · push Not at hrank
      rw [C21_dense_rank_zero env m k _ _ _ hty he hrank] at h
      cases h
  | sparse =>
    rw [SvdCallOk, hty] at hs
    simp only at hs
    obtain ⟨ut, s, vt, he, hp⟩ := svd_returned_sparse hty h
    replace hs := hs ut s vt he
    rw [hs.uCols] at hp
    obtain ⟨red, V, h1, _, h3, _, _, ht⟩ := C21_sparse env m k _ _ _ hty hr hc hk he hs hp
    rw [h] at h1
    have := ok_inj h1
    simp only [Prod.mk.injEq] at this
    obtain ⟨rfl, rfl⟩ := this
    exact ⟨_, _, _, _, hs, Nat.min_le_right _ _, lt_min hk hp, ht⟩

/-- The transformation of an SVD reduction makes no combination of rows longer (Bessel). -/
theorem truncation_contracts {A u : Mat ℝ} {s : List ℝ} {vt : Mat ℝ} {n : ℕ} {red V : Mat ℝ}
    (h : SingularTriples A u s vt) (hn : n ≤ s.length) (ht : Truncation A u s vt n red V) (x : ℕ → ℝ) :
    ∑ l ∈ range n, (∑ j ∈ range A.nc, x j * V.get j l) ^ 2 ≤ ∑ j ∈ range A.nc, x j ^ 2 := by
  obtain ⟨σ, hσ, _, h2⟩ := ht.signed
  have hv : Orthonormal ℝ (fun l : Fin n => evec A.nc (fun j => vt.get l j)) := by
    rw [orthonormal_iff_ite]
    intro k l
    rw [evec_inner, h.vOrth k l (by omega) (by omega)]
    simp [Fin.ext_iff]
  have := hv.sum_inner_products_le (evec A.nc x) (s := Finset.univ)
  rw [evec_norm] at this
  refine le_trans (le_of_eq ?_) this
  rw [Finset.sum_range]
  refine Finset.sum_congr rfl (fun l _ => ?_)
  rw [evec_inner, Real.norm_eq_abs, sq_abs]
  have e : ∀ j ∈ range A.nc, x j * V.get j l = σ * (vt.get l j * x j) := by
    intro j hj
    rw [h2 j l (Finset.mem_range.1 hj) l.2]; ring
  rw [Finset.sum_congr rfl e, ← Finset.mul_sum, mul_pow, sq σ, hσ, one_mul]

/-- `get_sim` of two words of one space, as a formula on its matrix. -/
theorem Space.getSim_words {s : Space κ} (h : s.WF) (hc : 0 < s.mat.nc) {i j : ℕ} {w1 w2 : κ} (hi : s.HasWord i w1)
    (hj : s.HasWord j w2) (sim : Sim) :
    s.getSim w1 w2 sim none = .ok (simVal sim s.mat.nc (s.mat.val.get i) (s.mat.val.get j)) := by
  unfold Space.getSim
  rw [Space.getRowOpt_word h hc hi]
  simp only [Option.getD_none]
  rw [Space.getRowOpt_word h hc hj]
  simp only [ok_bind]
  obtain ⟨ty, hty⟩ := resolve_dense_two (s.isRow_row s.mat.ty i) (s.isRow_row s.mat.ty j) hc hc
  rw [hty]
  simp only [ok_bind]
  exact getSim_row sim hc (s.isRow_row ty i) (s.isRow_row ty j)

theorem row_lt {s : Space κ} (h : s.WF) {i : ℕ} {w : κ} (hi : s.HasWord i w) : i < s.mat.nr := by
  rw [h.nrows]
  exact (List.getElem?_eq_some_iff.1 hi).1

/-- **C100** reducing a space with `Svd` never lowers the Euclidean similarity of two words, and makes no word vector
longer. -/
theorem C100_never_apart (env : Env) (s s' : Space κ) (k : ℕ) (hk : 0 < k) (h : s.WF) (hc : 0 < s.mat.nc)
    (hs : SvdCallOk env s.mat k) (ha : s.apply env (.dimred (.svd k)) = .ok s') (w1 w2 : κ) (hw1 : w1 ∈ s.id2row)
    (hw2 : w2 ∈ s.id2row) :
    (∃ x y, s.getSim w1 w2 .euclid none = .ok x ∧ s'.getSim w1 w2 .euclid none = .ok y ∧ x ≤ y) ∧
    (∃ x y, s.getSim w1 w1 .dot none = .ok x ∧ s'.getSim w1 w1 .dot none = .ok y ∧ y ≤ x) := by
  obtain ⟨op, m, hop, op', _, hm, hrows, _, _, hwf, _⟩ := apply_eq_ok ha
  obtain ⟨r0, tm, hap, rfl, rfl⟩ := opApply_dimred hop
  obtain ⟨i, hi⟩ := Space.hasWord_of_mem hw1
  obtain ⟨j, hj⟩ := Space.hasWord_of_mem hw2
  have hi' : s'.HasWord i w1 := by rw [Space.HasWord, hrows]; exact hi
  have hj' : s'.HasWord j w2 := by rw [Space.HasWord, hrows]; exact hj
  have hr : 0 < s.mat.nr := lt_of_le_of_lt (Nat.zero_le _) (row_lt h hi)
  obtain ⟨u, sv, vt, n, htri, hn, hn0, ht⟩ := svd_apply_truncation hk hr hc hs hap
  have hnc : s'.mat.nc = n := by rw [hm]; exact ht.redCols
  have hc' : 0 < s'.mat.nc := by omega
  have hmul := ht.mul htri hn
  have hval : s'.mat.val = r0.val := by rw [hm]
  have hget : ∀ a l, s'.mat.val.get a l = ∑ b ∈ range s.mat.nc, s.mat.val.get a b * tm.val.get b l := by
    intro a l
    rw [hval, ← hmul, Mat.mul_get]
  refine ⟨⟨_, _, Space.getSim_words h hc hi hj .euclid, Space.getSim_words hwf hc' hi' hj' .euclid, ?_⟩,
    ⟨_, _, Space.getSim_words h hc hi hi .dot, Space.getSim_words hwf hc' hi' hi' .dot, ?_⟩⟩
  · simp only [simVal, len2, hnc]
    have key := truncation_contracts htri hn ht (fun b => s.mat.val.get i b - s.mat.val.get j b)
    have e : ∑ l ∈ range n, (s'.mat.val.get i l - s'.mat.val.get j l) ^ 2 =
        ∑ l ∈ range n, (∑ b ∈ range s.mat.val.nc, (s.mat.val.get i b - s.mat.val.get j b) * tm.val.get b l) ^ 2 := by
      refine Finset.sum_congr rfl (fun l _ => ?_)
      rw [hget, hget, ← Finset.sum_sub_distrib]
      congr 1
      exact Finset.sum_congr rfl (fun b _ => by ring)
    rw [e]
    have h1 := Real.sqrt_le_sqrt key
    have h2 := Real.sqrt_nonneg (∑ l ∈ range n, (∑ b ∈ range s.mat.val.nc, (s.mat.val.get i b - s.mat.val.get j b) * tm.val.get b l) ^ 2)
    exact one_div_le_one_div_of_le (by linarith) (by linarith!)
  · simp only [simVal, Dissect.inner, hnc]
    have key := truncation_contracts htri hn ht (fun b => s.mat.val.get i b)
    have e : ∑ l ∈ range n, s'.mat.val.get i l * s'.mat.val.get i l =
        ∑ l ∈ range n, (∑ b ∈ range s.mat.val.nc, s.mat.val.get i b * tm.val.get b l) ^ 2 := by
      refine Finset.sum_congr rfl (fun l _ => ?_)
      rw [hget, sq]
    rw [e]
    refine key.trans (le_of_eq (Finset.sum_congr rfl (fun b _ => ?_)))
    rw [sq]

/-- Three of the four measures depend only on inner products. -/
theorem simVal_of_gram {sim : Sim} (hsim : sim ≠ .lin) {n n' : ℕ} {u v u' v' : ℕ → ℝ}
    (h1 : ∑ j ∈ range n', u' j * u' j = ∑ j ∈ range n, u j * u j)
    (h2 : ∑ j ∈ range n', v' j * v' j = ∑ j ∈ range n, v j * v j)
    (h3 : ∑ j ∈ range n', u' j * v' j = ∑ j ∈ range n, u j * v j) :
    simVal sim n' u' v' = simVal sim n u v := by
  have hl : ∀ (k : ℕ) (f : ℕ → ℝ), len2 k f = Real.sqrt (∑ j ∈ range k, f j * f j) := by
    intro k f
    unfold len2
    congr 1
    exact Finset.sum_congr rfl (fun j _ => by ring)
  have hd : ∀ (k : ℕ) (f g : ℕ → ℝ), ∑ j ∈ range k, (f j - g j) * (f j - g j) =
      ∑ j ∈ range k, f j * f j - 2 * ∑ j ∈ range k, f j * g j + ∑ j ∈ range k, g j * g j := by
    intro k f g
    rw [Finset.mul_sum, ← Finset.sum_sub_distrib, ← Finset.sum_add_distrib]
    exact Finset.sum_congr rfl (fun j _ => by ring)
  cases sim with
  | dot => exact h3
  | cos => simp only [simVal, hl, h1, h2, Dissect.inner, h3]
  | euclid => simp only [simVal, hl, hd, h1, h2, h3]
  | lin => exact absurd rfl hsim

/-- **C100** when `k` is at least the rank, the dot, cosine and Euclidean similarities of all words are unchanged
(dense matrices; no singular value strictly between 0 and the tolerance 1e-12). -/
theorem C100_rank_preserved (env : Env) (s s' : Space κ) (k : ℕ) (hk : 0 < k) (h : s.WF) (hc : 0 < s.mat.nc)
    (hty : s.mat.ty = .dense) (u : Mat ℝ) (sv : List ℝ) (vt : Mat ℝ) (he : env.npSvd s.mat.val = .ok (u, sv, vt))
    (hsvd : IsSvd s.mat.val u sv vt) (hz : ∀ x ∈ sv, x ≤ svdTol → x = 0)
    (hkr : (sv.filter (fun x => decide (0 < x))).length ≤ k)
    (ha : s.apply env (.dimred (.svd k)) = .ok s') (sim : Sim) (hsim : sim ≠ .lin) (w1 w2 : κ) :
    s'.getSim w1 w2 sim none = s.getSim w1 w2 sim none := by
  obtain ⟨op, m, hop, op', _, hm, hrows, _, _, hwf, _⟩ := apply_eq_ok ha
  obtain ⟨r0, tm, hap, rfl, rfl⟩ := opApply_dimred hop
  have hfil : sv.filter (fun x => decide (svdTol < x)) = sv.filter (fun x => decide (0 < x)) := by
    refine List.filter_congr (fun x hx => ?_)
    have ht : 0 < svdTol := by norm_num [svdTol]
    simp only [decide_eq_decide]
    constructor
    · intro h; linarith
    · intro h
      by_contra hn
      have := hz x hx (not_lt.1 hn)
      linarith
  have hnone : ∀ {w : κ} {sp : Space κ}, sp.WF → w ∉ sp.id2row → sp.getRowOpt w = .ok none :=
    fun h hw => Space.getRowOpt_missing h hw
  by_cases hr : 0 < s.mat.nr
  · by_cases hrank : ∃ x ∈ sv, svdTol < x
    · obtain ⟨red, V, h1, hin⟩ := C21_inner_products env s.mat k u sv vt hty hr hc hk he hsvd hrank (by rw [hfil]; exact hkr)
      rw [hap] at h1
      have := ok_inj h1
      simp only [Prod.mk.injEq] at this
      obtain ⟨rfl, rfl⟩ := this
      have hc' : 0 < s'.mat.nc := by
        rw [hm]
        have hsc : SvdCallOk env s.mat k := by
          rw [SvdCallOk, hty]
          intro u' s' vt' h'
          rw [he] at h'
          injection h' with h'
          simp only [Prod.mk.injEq] at h'
          obtain ⟨rfl, rfl, rfl⟩ := h'
          exact hsvd
        exact (svd_apply_spec hk hr hc hsc hap).2.1
      have hval : s'.mat.val = r0.val := by rw [hm]
      have hnc : s'.mat.nc = r0.nc := by rw [hm]
      by_cases hw1 : w1 ∈ s.id2row
      · by_cases hw2 : w2 ∈ s.id2row
        · obtain ⟨i, hi⟩ := Space.hasWord_of_mem hw1
          obtain ⟨j, hj⟩ := Space.hasWord_of_mem hw2
          have hi' : s'.HasWord i w1 := by rw [Space.HasWord, hrows]; exact hi
          have hj' : s'.HasWord j w2 := by rw [Space.HasWord, hrows]; exact hj
          rw [Space.getSim_words h hc hi hj, Space.getSim_words hwf hc' hi' hj', hnc, hval]
          have li := row_lt h hi
          have lj := row_lt h hj
          rw [simVal_of_gram hsim ((hin i i li li).2 hz) ((hin j j lj lj).2 hz) ((hin i j li lj).2 hz)]
        · rw [C08_missing s s none sim w1 w2 rfl h h hc (Or.inr hw2),
            C08_missing s' s' none sim w1 w2 rfl hwf hwf hc' (Or.inr (by rw [hrows]; exact hw2))]
      · rw [C08_missing s s none sim w1 w2 rfl h h hc (Or.inl hw1),
          C08_missing s' s' none sim w1 w2 rfl hwf hwf hc' (Or.inl (by rw [hrows]; exact hw1))]
    · push Not at hrank
      rw [C21_dense_rank_zero env s.mat k u sv vt hty he hrank] at hap
      cases hap
  · have h0 : s.id2row = [] := by
      rw [← List.length_eq_zero_iff, ← h.nrows]; omega
    have a : w1 ∉ s.id2row := by simp [h0]
    unfold Space.getSim
    rw [hnone h a, hnone hwf (by rw [hrows]; exact a)]
    rfl

/-- A space of two words, its matrix `diag(3, 2)`. -/
theorem ex_space2 : ∃ s : Space String, s.WF ∧ s.mat = ⟨.dense, exDiag⟩ ∧ s.id2row = ["a", "b"] ∧ s.elemShape = [2] := by
  obtain ⟨s, hs⟩ := (C01_accepts_iff (⟨.dense, exDiag⟩ : TMat ℝ) ["a", "b"] [] none none [] none).2
    ⟨by decide, by decide, by simp, by simp, rfl, by simp, by simp⟩
  obtain ⟨h1, h2, h3, h4, h5, h6, _⟩ := C01_result _ _ _ _ _ _ _ s hs
  exact ⟨s, h1, h2, h3, h6⟩

/-- **C100** such a reduction exists: a non-empty dense space of plain vectors, with a singular value above the
tolerance, can be reduced to any positive dimension. -/
theorem C100_total (env : Env) (s : Space κ) (k : ℕ) (hk : 0 < k) (h : s.WF) (hr : 0 < s.mat.nr) (hc : 0 < s.mat.nc)
    (hsh : s.elemShape.length ≤ 1) (hty : s.mat.ty = .dense) (u : Mat ℝ) (sv : List ℝ) (vt : Mat ℝ)
    (he : env.npSvd s.mat.val = .ok (u, sv, vt)) (hsvd : IsSvd s.mat.val u sv vt) (hrank : ∃ x ∈ sv, 1 / 10 ^ 12 < x) :
    ∃ s', s.apply env (.dimred (.svd k)) = .ok s' := by
  replace hrank : ∃ x ∈ sv, svdTol < x := hrank
  obtain ⟨red, V, hap, h1, h2, h3, _, hmul, _⟩ := C21_dense env s.mat k u sv vt hty hr hc hk he hsvd hrank
  have ha : s.assert1dim = .ok () := by
    unfold Space.assert1dim
    rw [if_neg (by omega)]
  unfold Space.apply
  simp only [Trans.createOp, Op.apply, hap, ok_bind, pure_eq_ok, TMat.toDense, ha]
  exact ⟨_, Space.new_ok (Space.resolveMap_some h.rows) (Space.resolveMap_some Labels.empty)
    (by rw [← h.nrows]; exact h1) (fun hne => absurd rfl hne) (by simp)⟩

/-- Non-vacuity of C100: the two words move together when their space is reduced to one dimension. -/
example : ∃ s s' : Space String, s.WF ∧ s.apply exEnv (.dimred (.svd 1)) = .ok s' ∧ SvdCallOk exEnv s.mat 1 ∧
    ∃ x y, s.getSim "a" "b" .euclid none = .ok x ∧ s'.getSim "a" "b" .euclid none = .ok y ∧ x ≤ y := by
  obtain ⟨s, hwf, hm, hrows, hsh⟩ := ex_space2
  have hcall : SvdCallOk exEnv s.mat 1 := by rw [hm]; exact ex_svdCall _
  have hc : 0 < s.mat.nc := by rw [hm]; simp [exDiag, TMat.nc]
  obtain ⟨s', hs'⟩ := C100_total exEnv s 1 (by norm_num) hwf (by rw [hm]; simp [exDiag, TMat.nr])
    hc (by rw [hsh]; simp) (by rw [hm]) exOne [3, 2] exOne rfl (by rw [hm]; exact ex_isSvd)
    ⟨3, by simp, by norm_num [svdTol]⟩
  exact ⟨s, s', hwf, hs', hcall, (C100_never_apart exEnv s s' 1 (by norm_num) hwf hc hcall hs' "a" "b" (by simp [hrows])
    (by simp [hrows])).1⟩

/-- Non-vacuity of the second part: reduced to two dimensions nothing changes. -/
example : ∃ s s' : Space String, s.WF ∧ s.apply exEnv (.dimred (.svd 2)) = .ok s' ∧
    s'.getSim "a" "b" .cos none = s.getSim "a" "b" .cos none := by
  obtain ⟨s, hwf, hm, hrows, hsh⟩ := ex_space2
  have hc : 0 < s.mat.nc := by rw [hm]; simp [exDiag, TMat.nc]
  obtain ⟨s', hs'⟩ := C100_total exEnv s 2 (by norm_num) hwf (by rw [hm]; simp [exDiag, TMat.nr])
    hc (by rw [hsh]; simp) (by rw [hm]) exOne [3, 2] exOne rfl (by rw [hm]; exact ex_isSvd)
    ⟨3, by simp, by norm_num [svdTol]⟩
  refine ⟨s, s', hwf, hs', C100_rank_preserved exEnv s s' 2 (by norm_num) hwf hc (by rw [hm]) exOne [3, 2] exOne rfl
    (by rw [hm]; exact ex_isSvd) ?_ (by simp) hs' .cos (by simp) "a" "b"⟩
  intro x hx hle
  simp only [List.mem_cons, List.not_mem_nil, or_false] at hx
  rcases hx with rfl | rfl <;> norm_num [svdTol] at hle

end
end Dissect
