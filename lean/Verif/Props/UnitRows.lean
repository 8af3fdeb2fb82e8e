import Verif.Props.Invariance
import Verif.Props.SvdBest

/-! # C143: after normalising the rows by length, the measures agree -/

namespace Dissect
open Finset
noncomputable section
variable {κ : Type} [DecidableEq κ]

/-- The word is a row label of the space and its vector is not all zeros. -/
def NonZeroWord (s : Space κ) (w : κ) : Prop :=
  ∃ i, s.id2row[i]? = some w ∧ ∃ j, j < s.mat.nc ∧ s.mat.val.get i j ≠ 0

/-- Two score functions that order the rows in the same way give the same ranking. -/
theorem TopNeighbours.same_words {rows : List κ} {sc sc' : κ → ℝ} {n : ℤ} {res res' : List (κ × ℝ)}
    (hlt : ∀ x ∈ rows, ∀ y ∈ rows, sc x < sc y ↔ sc' x < sc' y) (h : TopNeighbours rows sc n res)
    (h' : TopNeighbours rows sc' n res') : res.map Prod.fst = res'.map Prod.fst := by
  have heq : ∀ x ∈ rows, ∀ y ∈ rows, sc' x = sc' y → sc x = sc y := by
    intro x hx y hy e
    refine le_antisymm (not_lt.1 fun hl => ?_) (not_lt.1 fun hl => ?_)
    · exact absurd ((hlt y hy x hx).1 hl) (by rw [e]; exact lt_irrefl _)
    · exact absurd ((hlt x hx y hy).1 hl) (by rw [e]; exact lt_irrefl _)
  have hfst : (res'.map (fun p => (p.1, sc p.1))).map Prod.fst = res'.map Prod.fst := by
    rw [List.map_map]; rfl
  have key : TopNeighbours rows sc n (res'.map (fun p => (p.1, sc p.1))) := by
    refine ⟨by rw [List.length_map]; exact h'.length, ?_, by rw [hfst]; exact h'.distinct, ?_, ?_⟩
    · intro p hp
      obtain ⟨q, hq, rfl⟩ := List.mem_map.1 hp
      exact ⟨(h'.entries q hq).1, rfl⟩
    · rw [List.pairwise_map]
      refine h'.ordered.imp_of_mem (fun {a b} ha hb hab => ?_)
      obtain ⟨a1, a2⟩ := h'.entries a ha
      obtain ⟨b1, b2⟩ := h'.entries b hb
      rcases hab with hl | ⟨he, hi⟩
      · exact Or.inl ((hlt _ b1 _ a1).2 (by rw [← a2, ← b2]; exact hl))
      · exact Or.inr ⟨heq _ b1 _ a1 (by rw [← a2, ← b2]; exact he), hi⟩
    · intro p hp x hx hn
      obtain ⟨q, hq, rfl⟩ := List.mem_map.1 hp
      rw [hfst] at hn
      obtain ⟨a1, a2⟩ := h'.entries q hq
      rcases h'.best q hq x hx hn with hl | ⟨he, hi⟩
      · exact Or.inl ((hlt _ hx _ a1).2 (by rw [← a2]; exact hl))
      · exact Or.inr ⟨heq _ hx _ a1 (by rw [← a2]; exact he), hi⟩
  rw [h.unique (fun _ _ => rfl) key, hfst]

/-- The rows of a space normalised by length: every vector has length 1, or is zero as it was before. -/
theorem unit_rows {env : Env} {s s' : Space κ} (hr : 0 < s.mat.nr) (hc : 0 < s.mat.nc)
    (h : s.apply env (.scaling (.rowNorm .length)) = .ok s') :
    s'.WF ∧ s'.id2row = s.id2row ∧ s'.mat.nc = s.mat.nc ∧
    (∀ i, i < s.mat.nr → len2 s'.mat.nc (s'.mat.val.get i) = 1 ∨ len2 s'.mat.nc (s'.mat.val.get i) = 0) ∧
    ∀ i, i < s.mat.nr → (∃ j, j < s.mat.nc ∧ s.mat.val.get i j ≠ 0) → len2 s'.mat.nc (s'.mat.val.get i) = 1 := by
  obtain ⟨h1, h2⟩ := normalises_rowScaled hr hc (Or.inl rfl) h
  obtain ⟨_, _, _, hnc, hap⟩ := C05_scaling_keeps_columns env s s' _ hr h
  obtain ⟨r, e1, _, _, e4, e5, e6⟩ := C18_row_normalization .length s.mat hr hc
  have : rowNormalization .length s.mat = .ok s'.mat := hap
  rw [e1] at this
  obtain rfl := ok_inj this
  have hone : ∀ i, i < s.mat.nr → rowQuantity .length s.mat.val i ≠ 0 → len2 s'.mat.nc (s'.mat.val.get i) = 1 :=
    fun i hi h0 => (e5 i hi h0).1
  refine ⟨h2, h1.rows, hnc, fun i hi => ?_, fun i hi ⟨j, hj, hne⟩ => hone i hi fun h0 => hne ?_⟩
  · by_cases h0 : rowQuantity .length s.mat.val i = 0
    · exact Or.inr (len2_eq_zero.2 fun j _ => e6 i hi h0 j)
    · exact Or.inl (hone i hi h0)
  · exact (len2_eq_zero (n := s.mat.nc) (u := s.mat.val.get i)).1 h0 j hj

theorem inner_zero_of_len {n : ℕ} {u v : ℕ → ℝ} (h : len2 n u = 0 ∨ len2 n v = 0) : inner n u v = 0 := by
  refine Finset.sum_eq_zero fun j hj => ?_
  rcases h with h | h
  · rw [len2_eq_zero.1 h j (Finset.mem_range.1 hj), zero_mul]
  · rw [len2_eq_zero.1 h j (Finset.mem_range.1 hj), mul_zero]

theorem unit_cos {n : ℕ} {u v : ℕ → ℝ} (hu : len2 n u = 1 ∨ len2 n u = 0) (hv : len2 n v = 1 ∨ len2 n v = 0) :
    simVal .dot n u v = simVal .cos n u v := by
  simp only [simVal]
  split
  · next h => exact inner_zero_of_len h
  · next h =>
    push Not at h
    rw [hu.resolve_right h.1, hv.resolve_right h.2, mul_one, div_one]

theorem unit_dist {n : ℕ} {u v : ℕ → ℝ} (hu : len2 n u = 1) (hv : len2 n v = 1) :
    len2 n (fun j => u j - v j) = Real.sqrt (2 - 2 * simVal .cos n u v) := by
  have hsq : ∀ w : ℕ → ℝ, len2 n w = 1 → ∑ j ∈ range n, w j ^ 2 = 1 := by
    intro w hw
    unfold len2 at hw
    rwa [Real.sqrt_eq_one] at hw
  rw [← unit_cos (Or.inl hu) (Or.inl hv)]
  simp only [simVal, inner, len2]
  congr 1
  have : ∀ j ∈ range n, (u j - v j) ^ 2 = u j ^ 2 + v j ^ 2 - 2 * (u j * v j) := fun j _ => by ring
  rw [Finset.sum_congr rfl this, Finset.sum_sub_distrib, Finset.sum_add_distrib, hsq u hu, hsq v hv,
    ← Finset.mul_sum]
  ring

theorem Space.row_lt_of_word {s : Space κ} (h : s.WF) {i : ℕ} {w : κ} (hi : s.HasWord i w) : i < s.mat.nr := by
  have : s.mat.nr = s.id2row.length := h.nrows
  rw [this]
  exact (List.getElem?_eq_some_iff.1 hi).1

/-- **C143** after both spaces are normalised by row length, the dot product of any two words is their cosine (words
without a vector and words with a zero vector included). -/
theorem C143_dot_is_cosine (env : Env) (s s' t t' : Space κ) (hwf : s.WF) (hwt : t.WF) (hr : 0 < s.mat.nr)
    (hrt : 0 < t.mat.nr) (hc : 0 < s.mat.nc) (hcc : s.mat.nc = t.mat.nc)
    (h : s.apply env (.scaling (.rowNorm .length)) = .ok s') (ht : t.apply env (.scaling (.rowNorm .length)) = .ok t')
    (w1 w2 : κ) : s'.getSim w1 w2 .dot (some t') = s'.getSim w1 w2 .cos (some t') := by
  obtain ⟨a1, a2, a3, a4, _⟩ := unit_rows hr hc h
  obtain ⟨b1, b2, b3, b4, _⟩ := unit_rows hrt (hcc ▸ hc) ht
  by_cases hk : w1 ∈ s'.id2row ∧ w2 ∈ t'.id2row
  · obtain ⟨i, hi⟩ := Space.hasWord_of_mem hk.1
    obtain ⟨j, hj⟩ := Space.hasWord_of_mem hk.2
    have li : i < s.mat.nr := Space.row_lt_of_word hwf (by unfold Space.HasWord; rw [← a2]; exact hi)
    have lj : j < t.mat.nr := Space.row_lt_of_word hwt (by unfold Space.HasWord; rw [← b2]; exact hj)
    have hw : s'.mat.nc = t'.mat.nc := by omega
    rw [Space.getSim_words2 (target := t') rfl a1 b1 (by omega) hw hi hj,
      Space.getSim_words2 (target := t') rfl a1 b1 (by omega) hw hi hj,
      unit_cos (a4 i li) (by rw [hw]; exact b4 j lj)]
  · have : w1 ∉ s'.id2row ∨ w2 ∉ t'.id2row := by tauto
    rw [C08_missing s' t' (some t') .dot w1 w2 rfl a1 b1 (by omega) this,
      C08_missing s' t' (some t') .cos w1 w2 rfl a1 b1 (by omega) this]

/-- **C143** and the Euclidean similarity of two words with non-zero vectors is a function of their cosine `c`: the
distance is `√(2 − 2c)`. -/
theorem C143_euclid_from_cosine (env : Env) (s s' t t' : Space κ) (hwf : s.WF) (hwt : t.WF) (hr : 0 < s.mat.nr)
    (hrt : 0 < t.mat.nr) (hc : 0 < s.mat.nc) (hcc : s.mat.nc = t.mat.nc)
    (h : s.apply env (.scaling (.rowNorm .length)) = .ok s') (ht : t.apply env (.scaling (.rowNorm .length)) = .ok t')
    (w1 w2 : κ) (h1 : NonZeroWord s w1) (h2 : NonZeroWord t w2) :
    ∃ c : ℝ, -1 ≤ c ∧ c ≤ 1 ∧ s'.getSim w1 w2 .cos (some t') = .ok c ∧
      s'.getSim w1 w2 .euclid (some t') = .ok (1 / (1 + Real.sqrt (2 - 2 * c))) := by
  obtain ⟨a1, a2, a3, _, a4⟩ := unit_rows hr hc h
  obtain ⟨b1, b2, b3, _, b4⟩ := unit_rows hrt (hcc ▸ hc) ht
  obtain ⟨i, hi, hni⟩ := h1
  obtain ⟨j, hj, hnj⟩ := h2
  have li : i < s.mat.nr := Space.row_lt_of_word hwf hi
  have lj : j < t.mat.nr := Space.row_lt_of_word hwt hj
  have hw : s'.mat.nc = t'.mat.nc := by omega
  rw [← a2] at hi
  rw [← b2] at hj
  have hu := a4 i li hni
  have hv := b4 j lj hnj
  rw [← hw] at hv
  refine ⟨simVal .cos s'.mat.nc (s'.mat.val.get i) (t'.mat.val.get j), ?_, ?_,
    Space.getSim_words2 (target := t') rfl a1 b1 (by omega) hw hi hj .cos, ?_⟩
  · have : simVal .cos s'.mat.nc (s'.mat.val.get i) (t'.mat.val.get j) = inner s'.mat.nc (s'.mat.val.get i) (t'.mat.val.get j) :=
      (unit_cos (Or.inl hu) (Or.inl hv)).symm
    rw [this]
    have e : ∀ w : ℕ → ℝ, len2 s'.mat.nc w = 1 → ∑ k ∈ range s'.mat.nc, w k ^ 2 = 1 := by
      intro w hw
      unfold len2 at hw
      rwa [Real.sqrt_eq_one] at hw
    have : 0 ≤ ∑ k ∈ range s'.mat.nc, (s'.mat.val.get i k + t'.mat.val.get j k) ^ 2 :=
      Finset.sum_nonneg fun _ _ => sq_nonneg _
    rw [Finset.sum_congr rfl (fun k _ => show (s'.mat.val.get i k + t'.mat.val.get j k) ^ 2 =
      s'.mat.val.get i k ^ 2 + t'.mat.val.get j k ^ 2 + 2 * (s'.mat.val.get i k * t'.mat.val.get j k) by ring),
      Finset.sum_add_distrib, Finset.sum_add_distrib, ← Finset.mul_sum, e _ hu, e _ hv] at this
    unfold inner
    linarith
  · have : simVal .cos s'.mat.nc (s'.mat.val.get i) (t'.mat.val.get j) = inner s'.mat.nc (s'.mat.val.get i) (t'.mat.val.get j) :=
      (unit_cos (Or.inl hu) (Or.inl hv)).symm
    rw [this]
    have e : ∀ w : ℕ → ℝ, len2 s'.mat.nc w = 1 → ∑ k ∈ range s'.mat.nc, w k ^ 2 = 1 := by
      intro w hw
      unfold len2 at hw
      rwa [Real.sqrt_eq_one] at hw
    have : 0 ≤ ∑ k ∈ range s'.mat.nc, (s'.mat.val.get i k - t'.mat.val.get j k) ^ 2 :=
      Finset.sum_nonneg fun _ _ => sq_nonneg _
    rw [Finset.sum_congr rfl (fun k _ => show (s'.mat.val.get i k - t'.mat.val.get j k) ^ 2 =
      s'.mat.val.get i k ^ 2 + t'.mat.val.get j k ^ 2 - 2 * (s'.mat.val.get i k * t'.mat.val.get j k) by ring),
      Finset.sum_sub_distrib, Finset.sum_add_distrib, ← Finset.mul_sum, e _ hu, e _ hv] at this
    unfold inner
    linarith
  · rw [Space.getSim_words2 (target := t') rfl a1 b1 (by omega) hw hi hj .euclid, ← unit_dist hu hv]
    rfl

/-- **C143** the neighbour lists by dot product and by cosine are the same, scores included; and when no vector of the
searched space is zero, nor that of the query, the list by Euclidean similarity has the same words in the same order. -/
theorem C143_neighbours (env : Env) (s s' t t' : Space κ) (hwf : s.WF) (hwt : t.WF) (hr : 0 < s.mat.nr)
    (hrt : 0 < t.mat.nr) (hc : 0 < s.mat.nc) (hcc : s.mat.nc = t.mat.nc)
    (h : s.apply env (.scaling (.rowNorm .length)) = .ok s') (ht : t.apply env (.scaling (.rowNorm .length)) = .ok t')
    (w : κ) (n : ℤ) :
    s'.getNeighbours w n .dot (some t') = s'.getNeighbours w n .cos (some t') ∧
    (NonZeroWord s w → (∀ x ∈ t.id2row, NonZeroWord t x) →
      ∃ byCos byEuclid, s'.getNeighbours w n .cos (some t') = .ok byCos ∧
        s'.getNeighbours w n .euclid (some t') = .ok byEuclid ∧ byEuclid.map Prod.fst = byCos.map Prod.fst) := by
  obtain ⟨a1, a2, a3, _, _⟩ := unit_rows hr hc h
  obtain ⟨b1, b2, b3, _, _⟩ := unit_rows hrt (hcc ▸ hc) ht
  have hlen : 0 < t'.id2row.length := by
    rw [b2, ← hwt.nrows]; exact hrt
  constructor
  · by_cases hw : w ∈ s'.id2row
    · obtain ⟨r1, sc1, e1, e2, e3⟩ := C09_top_n s' t' (some t') .dot w n rfl a1 b1 (by omega) (by omega) hw hlen
      obtain ⟨r2, sc2, f1, f2, f3⟩ := C09_top_n s' t' (some t') .cos w n rfl a1 b1 (by omega) (by omega) hw hlen
      rw [e1, f1, e3.unique (fun x hx => ?_) f3]
      have := C143_dot_is_cosine env s s' t t' hwf hwt hr hrt hc hcc h ht w x
      rw [e2 x hx, f2 x hx] at this
      exact ok_inj this
    · rw [C09_unknown_word s' _ .dot w n a1 hw, C09_unknown_word s' _ .cos w n a1 hw]
  · intro hw hall
    have hw' : w ∈ s'.id2row := by
      obtain ⟨i, hi, _⟩ := hw
      rw [a2]
      exact List.mem_of_getElem? hi
    obtain ⟨r1, sc1, e1, e2, e3⟩ := C09_top_n s' t' (some t') .euclid w n rfl a1 b1 (by omega) (by omega) hw' hlen
    obtain ⟨r2, sc2, f1, f2, f3⟩ := C09_top_n s' t' (some t') .cos w n rfl a1 b1 (by omega) (by omega) hw' hlen
    refine ⟨r2, r1, f1, e1, e3.same_words (fun x hx y hy => ?_) f3⟩
    have key : ∀ x ∈ t'.id2row, sc2 x ≤ 1 ∧ sc1 x = 1 / (1 + Real.sqrt (2 - 2 * sc2 x)) := by
      intro x hx
      obtain ⟨c, _, c2, c3, c4⟩ := C143_euclid_from_cosine env s s' t t' hwf hwt hr hrt hc hcc h ht w x hw
        (hall x (by rw [← b2]; exact hx))
      rw [f2 x hx] at c3
      rw [e2 x hx] at c4
      obtain rfl := ok_inj c3
      exact ⟨c2, ok_inj c4⟩
    obtain ⟨x1, x2⟩ := key x hx
    obtain ⟨y1, y2⟩ := key y hy
    rw [x2, y2, one_div_lt_one_div (by positivity) (by positivity), add_lt_add_iff_left,
      Real.sqrt_lt_sqrt_iff (by linarith)]
    constructor <;> intro <;> linarith

/-- Non-vacuity of C143: the 2 × 3 space of counts, in which no row is zero. -/
example (env : Env) : ∃ s s' : Space String, s.apply env (.scaling (.rowNorm .length)) = .ok s' ∧
    s'.getSim "dog" "cat" .dot none = s'.getSim "dog" "cat" .cos none ∧
    (∃ c : ℝ, s'.getSim "dog" "cat" .cos (some s') = .ok c ∧
      s'.getSim "dog" "cat" .euclid (some s') = .ok (1 / (1 + Real.sqrt (2 - 2 * c)))) ∧
    ∃ byCos byEuclid, s'.getNeighbours "dog" 5 .cos (some s') = .ok byCos ∧
        s'.getNeighbours "dog" 5 .euclid (some s') = .ok byEuclid ∧ byEuclid.map Prod.fst = byCos.map Prod.fst := by
  obtain ⟨s, hwf, hm, hr, hc, ho, hsh⟩ := ex_space .sparse
  have h1 : 0 < s.mat.nr := by rw [hm]; simp [exMat, TMat.nr]
  have h2 : 0 < s.mat.nc := by rw [hm]; simp [exMat, TMat.nc]
  have hnn : NonNegative s.mat.val := by
    rw [hm]
    intro i j hi hj
    have hi' : i < 2 := hi
    have hj' : j < 3 := hj
    show 0 ≤ (Mat.of 2 3 _).get i j
    rw [Mat.of_get_lt hi' hj']
    exact Nat.cast_nonneg _
  have hall : ∀ x ∈ s.id2row, NonZeroWord s x := by
    intro x hx
    obtain ⟨i, hi⟩ := Space.hasWord_of_mem hx
    have li : i < s.mat.nr := Space.row_lt_of_word hwf hi
    refine ⟨i, hi, 1, ?_, ?_⟩
    · rw [hm]; show 1 < 3; decide
    · rw [hm] at li ⊢
      have : i < 2 := li
      show (Mat.of 2 3 _).get i 1 ≠ 0
      rw [Mat.of_get_lt this (by decide)]
      positivity
  obtain ⟨s', hs'⟩ := (C05_apply_total env s hwf h1 h2).1 (.rowNorm .length) hnn
  exact ⟨s, s', hs', C143_dot_is_cosine env s s' s s' hwf hwf h1 h1 h2 rfl hs' hs' _ _,
    (by
      obtain ⟨c, _, _, c3, c4⟩ := C143_euclid_from_cosine env s s' s s' hwf hwf h1 h1 h2 rfl hs' hs' "dog" "cat"
        (hall _ (by rw [hr]; simp)) (hall _ (by rw [hr]; simp))
      exact ⟨c, c3, c4⟩),
    (C143_neighbours env s s' s s' hwf hwf h1 h1 h2 rfl hs' hs' "dog" 5).2 (hall _ (by rw [hr]; simp)) hall⟩

end
end Dissect
