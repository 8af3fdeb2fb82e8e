import Verif.Props.SvdBest

/-! # C142: fewer dimensions are the first of more dimensions -/

namespace Dissect
noncomputable section
open Finset

/-! ### Specification -/

/-- The library always returns the leading part of one and the same decomposition of the matrix. (Singular vectors are unique up to
signs only when the singular values differ; a library that chooses differently from call to call is not covered.) -/
structure SvdOnce (env : Env) (m : TMat ℝ) (U : Mat ℝ) (S : List ℝ) (VT : Mat ℝ) : Prop where
  triples : SingularTriples m.val U S VT
  dense : m.ty = .dense → env.npSvd m.val = .ok (U, S, VT) ∧ IsSvd m.val U S VT
  sparse : m.ty = .sparse → ∀ q, 0 < q → ∃ ut s vt, env.sparseSvd m.val q = .ok (ut, s, vt) ∧
    SingularTriples m.val ut.transpose s vt ∧ s.length = min q S.length ∧
    ∀ c, c < s.length → s.getD c 0 = S.getD c 0 ∧ (∀ i, i < m.nr → ut.get c i = U.get i c) ∧ ∀ i, i < m.nc → vt.get c i = VT.get c i

/-! ### Lemmas -/

/-- Each reduction keeps the first triples of the one decomposition. -/
theorem SvdOnce.truncation {env : Env} {m : TMat ℝ} {U : Mat ℝ} {S : List ℝ} {VT : Mat ℝ} (h : SvdOnce env m U S VT)
    (hr : 0 < m.nr) (hc : 0 < m.nc) : ∃ N, N ≤ S.length ∧ ∀ k r V, 0 < k → (DimRedT.svd k).apply env m = .ok (r, V) →
      Truncation m.val U S VT (min k N) r.val V.val ∧ 0 < min k N := by
  cases hty : m.ty with
  | dense =>
    obtain ⟨he, hsvd⟩ := h.dense hty
    refine ⟨numRank S, numRank_le S, fun k r V hk ha => ?_⟩
    by_cases hrank : ∃ x ∈ S, svdTol < x
    · obtain ⟨red, V', h1, _, g, g', _, _, ht⟩ := C21_dense env m k _ _ _ hty hr hc hk he hsvd hrank
      rw [ha] at h1
      have := ok_inj h1
      simp only [Prod.mk.injEq] at this
      obtain ⟨rfl, rfl⟩ := this
      exact ⟨ht, by rw [g] at g'; exact g'⟩
    · push Not at hrank
      rw [C21_dense_rank_zero env m k _ _ _ hty he hrank] at ha
      cases ha
  | sparse =>
    refine ⟨S.length, le_rfl, fun k r V hk ha => ?_⟩
    obtain ⟨ut, s, vt, he, htri, hlen, hsame⟩ := h.sparse hty (k + k / 10) (by omega)
    obtain ⟨ut', s', vt', he', hp⟩ := svd_returned_sparse hty ha
    rw [he] at he'
    have := ok_inj he'
    simp only [Prod.mk.injEq] at this
    obtain ⟨rfl, rfl, rfl⟩ := this
    have hpos : 0 < s.length := by have := htri.uCols; rw [this] at hp; exact hp
    obtain ⟨red, V', h1, _, _, _, _, ht⟩ := C21_sparse env m k _ _ _ hty hr hc hk he htri hpos
    rw [ha] at h1
    have := ok_inj h1
    simp only [Prod.mk.injEq] at this
    obtain ⟨rfl, rfl⟩ := this
    have hn : min k s.length = min k S.length := by rw [hlen]; omega
    rw [hn] at ht
    obtain ⟨a1, a2, a3, a4, σ, hσ, b1, b2⟩ := ht
    refine ⟨⟨a1, a2, a3, a4, σ, hσ, fun i c hi hcc => ?_, fun i c hi hcc => ?_⟩, by omega⟩
    · have := hsame c (by omega)
      rw [b1 i c hi hcc, Mat.transpose_get, this.1, this.2.1 i hi]
    · have := hsame c (by omega)
      rw [b2 i c hi hcc, this.2.2 i hi]

theorem sign_of_sq {σ : ℝ} (h : σ * σ = 1) : σ = 1 ∨ σ = -1 := mul_self_eq_one_iff.1 h

/-! ### The property -/

/-- **C142** `Svd(j)` gives the first columns of `Svd(k)` for `j ≤ k`, all of them possibly with the opposite sign; and so do the
matrices with which new vectors are projected. -/
theorem C142_columns {env : Env} {m r1 V1 r2 V2 : TMat ℝ} {U : Mat ℝ} {S : List ℝ} {VT : Mat ℝ} (h : SvdOnce env m U S VT)
    (hr : 0 < m.nr) (hc : 0 < m.nc) {j k : ℕ} (hj : 0 < j) (hjk : j ≤ k) (h1 : (DimRedT.svd j).apply env m = .ok (r1, V1))
    (h2 : (DimRedT.svd k).apply env m = .ok (r2, V2)) :
    r1.nc = min j r2.nc ∧ ∃ σ : ℝ, (σ = 1 ∨ σ = -1) ∧ (∀ i c, i < m.nr → c < r1.nc → r1.val.get i c = σ * r2.val.get i c) ∧
      ∀ i c, i < m.nc → c < r1.nc → V1.val.get i c = σ * V2.val.get i c := by
  obtain ⟨N, hN, ht⟩ := h.truncation hr hc
  have t1 := (ht j r1 V1 hj h1).1
  have t2 := (ht k r2 V2 (by omega) h2).1
  have e1 : r1.nc = min j N := t1.redCols
  have e2 : r2.nc = min k N := t2.redCols
  obtain ⟨σ, hσ, a1, a2⟩ := t1.signed
  obtain ⟨τ, hτ, b1, b2⟩ := t2.signed
  refine ⟨by omega, σ * τ, sign_of_sq (by linear_combination (τ * τ) * hσ + hτ), fun i c hi hcc => ?_, fun i c hi hcc => ?_⟩
  · rw [a1 i c hi (by omega), b1 i c hi (by omega)]
    linear_combination (-σ * U.get i c * S.getD c 0) * hτ
  · rw [a2 i c hi (by omega), b2 i c hi (by omega)]
    linear_combination (-σ * VT.get c i) * hτ

variable {κ : Type} [DecidableEq κ]

/-- **C142** The more dimensions are kept, the closer to the originals are Euclidean similarities and lengths of vectors: going from
`k` to `j ≤ k` dimensions moves no two words apart and makes no vector longer. -/
theorem C142_similarity {env : Env} {s s1 s2 : Space κ} {U : Mat ℝ} {S : List ℝ} {VT : Mat ℝ} (h : SvdOnce env s.mat U S VT)
    (hwf : s.WF) (hc : 0 < s.mat.nc) {j k : ℕ} (hj : 0 < j) (hjk : j ≤ k) (h1 : s.apply env (.dimred (.svd j)) = .ok s1)
    (h2 : s.apply env (.dimred (.svd k)) = .ok s2) {w1 w2 : κ} (hw1 : w1 ∈ s.id2row) (hw2 : w2 ∈ s.id2row) :
    (∃ x y, s1.getSim w1 w2 .euclid none = .ok x ∧ s2.getSim w1 w2 .euclid none = .ok y ∧ y ≤ x) ∧
    (∃ x y, s1.getSim w1 w1 .dot none = .ok x ∧ s2.getSim w1 w1 .dot none = .ok y ∧ x ≤ y) := by
  obtain ⟨op, m, hop, op', _, hm, hrows, _, _, hwf1, _⟩ := apply_eq_ok h1
  obtain ⟨r1, V1, ha1, rfl, rfl⟩ := opApply_dimred hop
  obtain ⟨op2, m2, hop2, op2', _, hm2, hrows2, _, _, hwf2, _⟩ := apply_eq_ok h2
  obtain ⟨r2, V2, ha2, rfl, rfl⟩ := opApply_dimred hop2
  obtain ⟨a, hi⟩ := Space.hasWord_of_mem hw1
  obtain ⟨b, hj'⟩ := Space.hasWord_of_mem hw2
  have hr : 0 < s.mat.nr := lt_of_le_of_lt (Nat.zero_le _) (row_lt hwf hi)
  obtain ⟨hnc, σ, hσ, hcol, _⟩ := C142_columns h hr hc hj hjk ha1 ha2
  obtain ⟨N, hN, ht⟩ := h.truncation hr hc
  have t1 := ht j _ _ hj ha1
  have g1 : s1.mat.nc = r1.nc := by rw [hm]
  have g2 : s2.mat.nc = r2.nc := by rw [hm2]
  have v1 : s1.mat.val = r1.val := by rw [hm]
  have v2 : s2.mat.val = r2.val := by rw [hm2]
  have hpos1 : 0 < r1.nc := by rw [show r1.nc = _ from t1.1.redCols]; exact t1.2
  have hle : r1.nc ≤ r2.nc := by omega
  have hsq : σ * σ = 1 := by rcases hσ with rfl | rfl <;> norm_num
  have hab : a < s.mat.nr ∧ b < s.mat.nr := ⟨row_lt hwf hi, row_lt hwf hj'⟩
  refine ⟨⟨_, _, Space.getSim_words hwf1 (by omega) (by rw [Space.HasWord, hrows]; exact hi) (by rw [Space.HasWord, hrows]; exact hj') .euclid,
      Space.getSim_words hwf2 (by omega) (by rw [Space.HasWord, hrows2]; exact hi) (by rw [Space.HasWord, hrows2]; exact hj') .euclid, ?_⟩,
    ⟨_, _, Space.getSim_words hwf1 (by omega) (by rw [Space.HasWord, hrows]; exact hi) (by rw [Space.HasWord, hrows]; exact hi) .dot,
      Space.getSim_words hwf2 (by omega) (by rw [Space.HasWord, hrows2]; exact hi) (by rw [Space.HasWord, hrows2]; exact hi) .dot, ?_⟩⟩
  · simp only [simVal, len2, g1, g2, v1, v2]
    have e : ∑ l ∈ range r1.nc, (r1.val.get a l - r1.val.get b l) ^ 2 ≤ ∑ l ∈ range r2.nc, (r2.val.get a l - r2.val.get b l) ^ 2 := by
      have : ∑ l ∈ range r1.nc, (r1.val.get a l - r1.val.get b l) ^ 2 = ∑ l ∈ range r1.nc, (r2.val.get a l - r2.val.get b l) ^ 2 := by
        refine Finset.sum_congr rfl fun l hl => ?_
        rw [hcol a l hab.1 (Finset.mem_range.1 hl), hcol b l hab.2 (Finset.mem_range.1 hl)]
        linear_combination (r2.val.get a l - r2.val.get b l) ^ 2 * hsq
      rw [this]
      exact Finset.sum_le_sum_of_subset_of_nonneg (Finset.range_mono hle) fun _ _ _ => sq_nonneg _
    have h1 := Real.sqrt_le_sqrt e
    have h2 := Real.sqrt_nonneg (∑ l ∈ range r1.nc, (r1.val.get a l - r1.val.get b l) ^ 2)
    exact one_div_le_one_div_of_le (by linarith) (by linarith)
  · simp only [simVal, Dissect.inner, g1, g2, v1, v2]
    have : ∑ l ∈ range r1.nc, r1.val.get a l * r1.val.get a l = ∑ l ∈ range r1.nc, r2.val.get a l * r2.val.get a l := by
      refine Finset.sum_congr rfl fun l hl => ?_
      rw [hcol a l hab.1 (Finset.mem_range.1 hl)]
      linear_combination (r2.val.get a l * r2.val.get a l) * hsq
    rw [this]
    exact Finset.sum_le_sum_of_subset_of_nonneg (Finset.range_mono hle) fun _ _ _ => mul_self_nonneg _

/-! ### A concrete case -/

theorem ex_once (m : TMat ℝ) (hm : m = ⟨.dense, exDiag⟩) : SvdOnce exEnv m exOne [3, 2] exOne := by
  subst hm
  exact ⟨ex_isSvd.triples, fun _ => ⟨rfl, ex_isSvd⟩, fun h => by cases h⟩

/-- `diag(3, 2)` reduced to one and to two dimensions. -/
example : ∃ s s1 s2 : Space String, s.apply exEnv (.dimred (.svd 1)) = .ok s1 ∧ s.apply exEnv (.dimred (.svd 2)) = .ok s2 ∧
    ∃ x y, s1.getSim "a" "b" .euclid none = .ok x ∧ s2.getSim "a" "b" .euclid none = .ok y ∧ y ≤ x := by
  obtain ⟨s, hwf, hm, hrows, hsh⟩ := ex_space2
  have hc : 0 < s.mat.nc := by rw [hm]; simp [exDiag, TMat.nc]
  have hr : 0 < s.mat.nr := by rw [hm]; simp [exDiag, TMat.nr]
  have tot : ∀ k, 0 < k → ∃ s', s.apply exEnv (.dimred (.svd k)) = .ok s' := fun k hk =>
    C100_total exEnv s k hk hwf hr hc (by rw [hsh]; simp) (by rw [hm]) exOne [3, 2] exOne rfl (by rw [hm]; exact ex_isSvd)
      ⟨3, by simp, by norm_num [svdTol]⟩
  obtain ⟨s1, h1⟩ := tot 1 (by norm_num)
  obtain ⟨s2, h2⟩ := tot 2 (by norm_num)
  exact ⟨s, s1, s2, h1, h2, (C142_similarity (ex_once _ hm) hwf hc (by norm_num) (by norm_num : 1 ≤ 2) h1 h2
    (by rw [hrows]; simp) (by rw [hrows]; simp)).1⟩

example : ∃ r1 V1 r2 V2, (DimRedT.svd 1).apply exEnv ⟨.dense, exDiag⟩ = .ok (r1, V1) ∧
    (DimRedT.svd 2).apply exEnv ⟨.dense, exDiag⟩ = .ok (r2, V2) ∧ r1.nc = 1 ∧ r2.nc = 2 ∧ (r1.val.get 0 0 = r2.val.get 0 0 ∨
      r1.val.get 0 0 = -r2.val.get 0 0) := by
  have hrank : ∃ x ∈ ([3, 2] : List ℝ), svdTol < x := ⟨3, by simp, by norm_num [svdTol]⟩
  have hn : (([3, 2] : List ℝ).filter (fun x => decide (svdTol < x))).length = 2 := by norm_num [svdTol]
  obtain ⟨r1, V1, h1, _, c1, _⟩ := C21_dense exEnv ⟨.dense, exDiag⟩ 1 exOne [3, 2] exOne rfl (by simp [exDiag, TMat.nr])
    (by simp [exDiag, TMat.nc]) (by norm_num) rfl ex_isSvd hrank
  obtain ⟨r2, V2, h2, _, c2, _⟩ := C21_dense exEnv ⟨.dense, exDiag⟩ 2 exOne [3, 2] exOne rfl (by simp [exDiag, TMat.nr])
    (by simp [exDiag, TMat.nc]) (by norm_num) rfl ex_isSvd hrank
  rw [hn] at c1 c2
  obtain ⟨_, σ, hσ, hcol, _⟩ := C142_columns (ex_once _ rfl) (by simp [exDiag, TMat.nr]) (by simp [exDiag, TMat.nc]) (by norm_num)
    (by norm_num : 1 ≤ 2) h1 h2
  refine ⟨r1, V1, r2, V2, h1, h2, c1, c2, ?_⟩
  rw [hcol 0 0 (by simp [exDiag, TMat.nr]) (by rw [c1]; norm_num)]
  rcases hσ with rfl | rfl
  · left; ring
  · right; ring

end
end Dissect
