import Verif.Props.SpaceApply
import Verif.Props.Similarity
import Verif.Lemmas.MatOps

/-! # What does not change the answers: C101 (normalisation and cosine), C102 (multiplying the counts),
C103 (order of the rows), C104 (a word is its own nearest neighbour) -/

namespace Dissect
open Finset
noncomputable section
variable {κ : Type} [DecidableEq κ]

/-! ## C101 -/

/-- A neighbour list is determined by the rows, their scores and `n`. -/
theorem TopNeighbours.unique {rows : List κ} {sc sc' : κ → ℝ} {n : ℤ} {res res' : List (κ × ℝ)}
    (hsc : ∀ x ∈ rows, sc x = sc' x) (h : TopNeighbours rows sc n res) (h' : TopNeighbours rows sc' n res') :
    res = res' := by
  have nd : res.Nodup := List.Nodup.of_map _ h.distinct
  have nd' : res'.Nodup := List.Nodup.of_map _ h'.distinct
  have hlen : res.length = res'.length := by
    have := h.length
    have := h'.length
    omega
  have asym : ∀ p q : κ × ℝ, RanksBefore rows p q → RanksBefore rows q p → False := by
    intro p q h1 h2
    unfold RanksBefore at h1 h2
    rcases h1 with h1 | ⟨h1, h1'⟩ <;> rcases h2 with h2 | ⟨h2, h2'⟩
    · linarith
    · linarith
    · linarith
    · omega
  have fst_mem : ∀ p ∈ res, p.1 ∈ res'.map Prod.fst → p ∈ res' := by
    intro p hp hm
    obtain ⟨q, hq, hqp⟩ := List.mem_map.1 hm
    have e1 := (h.entries p hp)
    have e2 := (h'.entries q hq)
    have : q = p := by
      refine Prod.ext hqp ?_
      rw [e1.2, e2.2, hqp, hsc _ e1.1]
    exact this ▸ hq
  have fst_mem' : ∀ p ∈ res', p.1 ∈ res.map Prod.fst → p ∈ res := by
    intro p hp hm
    obtain ⟨q, hq, hqp⟩ := List.mem_map.1 hm
    have e1 := (h'.entries p hp)
    have e2 := (h.entries q hq)
    have : q = p := by
      refine Prod.ext hqp ?_
      rw [e1.2, e2.2, hqp, hsc _ e1.1]
    exact this ▸ hq
  have sub : ∀ p ∈ res, p ∈ res' := by
    intro p hp
    by_contra hn
    have hpf : p.1 ∉ res'.map Prod.fst := fun hm => hn (fst_mem p hp hm)
    obtain ⟨q, hq, hqn⟩ : ∃ q ∈ res', q ∉ res := by
      by_contra hall
      push Not at hall
      have hsub : res' ⊆ res := fun q hq => hall q hq
      have hp2 := List.subperm_of_subset nd' hsub
      have := (hp2.perm_of_length_le hlen.le).symm.subset hp
      exact hn this
    have hqf : q.1 ∉ res.map Prod.fst := fun hm => hqn (fst_mem' q hq hm)
    have ep := h.entries p hp
    have eqq := h'.entries q hq
    have b1 := h.best p hp q.1 eqq.1 hqf
    have b2 := h'.best q hq p.1 ep.1 hpf
    have c1 : (q.1, sc q.1) = q := Prod.ext rfl (by rw [eqq.2]; exact hsc _ eqq.1)
    have c2 : (p.1, sc' p.1) = p := Prod.ext rfl (by rw [ep.2]; exact (hsc _ ep.1).symm)
    rw [c1] at b1
    rw [c2] at b2
    exact asym _ _ b1 b2
  have hperm : res.Perm res' := (List.subperm_of_subset nd sub).perm_of_length_le hlen.ge
  exact hperm.eq_of_pairwise (fun a b _ _ h1 h2 => (asym _ _ h1 h2).elim) h.ordered h'.ordered

theorem simVal_congr {sim : Sim} {n : ℕ} {u v u' v' : ℕ → ℝ} (hu : ∀ j < n, u j = u' j) (hv : ∀ j < n, v j = v' j) :
    simVal sim n u v = simVal sim n u' v' := by
  have e : ∀ {f g : ℕ → ℝ}, (∀ j < n, f j = g j) → ∑ j ∈ range n, f j = ∑ j ∈ range n, g j :=
    fun h => Finset.sum_congr rfl (fun j hj => h j (Finset.mem_range.1 hj))
  have l : ∀ {f g : ℕ → ℝ}, (∀ j < n, f j = g j) → len2 n f = len2 n g := by
    intro f g h
    unfold len2
    rw [e (fun j hj => by rw [h j hj])]
  cases sim with
  | dot => exact e (fun j hj => by rw [hu j hj, hv j hj])
  | cos =>
    simp only [simVal, l hu, l hv]
    rw [show inner n u v = inner n u' v' from e (fun j hj => by rw [hu j hj, hv j hj])]
  | euclid =>
    simp only [simVal]
    rw [l (f := fun j => u j - v j) (g := fun j => u' j - v' j) (fun j hj => by rw [hu j hj, hv j hj])]
  | lin =>
    simp only [simVal, e hu, e hv]
    rw [e (f := fun j => if 0 < u j * v j then u j + v j else 0) (g := fun j => if 0 < u' j * v' j then u' j + v' j else 0)
      (fun j hj => by rw [hu j hj, hv j hj])]

theorem simVal_cos_scale {n : ℕ} {u v : ℕ → ℝ} {a b : ℝ} (ha : 0 < a) (hb : 0 < b) :
    simVal .cos n (fun j => a * u j) (fun j => b * v j) = simVal .cos n u v := by
  simp only [simVal, len2_smul ha, len2_smul hb, mul_eq_zero, ha.ne', hb.ne', false_or]
  split
  · rfl
  · rename_i h
    push Not at h
    have : inner n (fun j => a * u j) (fun j => b * v j) = a * b * inner n u v := by
      unfold inner
      rw [Finset.mul_sum]
      exact Finset.sum_congr rfl (fun j _ => by ring)
    rw [this]
    have h1 := h.1
    have h2 := h.2
    field_simp

/-- `t` has the words of `s`, each vector multiplied by a positive number of its own. -/
structure RowScaled (s t : Space κ) : Prop where
  rows : t.id2row = s.id2row
  width : t.mat.nc = s.mat.nc
  scaled : ∀ i, i < s.mat.nr → ∃ a : ℝ, 0 < a ∧ ∀ j, j < s.mat.nc → t.mat.val.get i j = a * s.mat.val.get i j

/-- `get_sim` of two words, possibly of different spaces, as a formula. -/
theorem Space.getSim_words2 {s target : Space κ} {space2 : Option (Space κ)} (ht : target = space2.getD s) (h : s.WF) (h2 : target.WF)
    (hc : 0 < s.mat.nc) (hcc : s.mat.nc = target.mat.nc) {i j : ℕ} {w1 w2 : κ} (hi : s.HasWord i w1)
    (hj : target.HasWord j w2) (sim : Sim) :
    s.getSim w1 w2 sim space2 = .ok (simVal sim s.mat.nc (s.mat.val.get i) (target.mat.val.get j)) := by
  unfold Space.getSim
  rw [Space.getRowOpt_word h hc hi, ← ht, Space.getRowOpt_word h2 (hcc ▸ hc) hj]
  simp only [ok_bind]
  obtain ⟨ty, hty⟩ := resolve_dense_two (s.isRow_row s.mat.ty i) (target.isRow_row target.mat.ty j) hc (hcc ▸ hc)
  rw [hty]
  simp only [ok_bind]
  exact getSim_row sim hc (s.isRow_row ty i) (by rw [hcc]; exact target.isRow_row ty j)

theorem Space.word_lt {s : Space κ} (h : s.WF) {i : ℕ} {w : κ} (hi : s.HasWord i w) : i < s.mat.nr := by
  rw [h.nrows]
  exact (List.getElem?_eq_some_iff.1 hi).1

theorem rowScaled_cos {s s' t t' : Space κ} (hs : RowScaled s s') (ht : RowScaled t t') (h1 : s.WF) (h2 : s'.WF)
    (h3 : t.WF) (h4 : t'.WF) (hc : 0 < s.mat.nc) (hcc : s.mat.nc = t.mat.nc) (w1 w2 : κ) :
    s'.getSim w1 w2 .cos (some t') = s.getSim w1 w2 .cos (some t) := by
  have hc' : 0 < s'.mat.nc := by rw [hs.width]; exact hc
  by_cases hw1 : w1 ∈ s.id2row
  · by_cases hw2 : w2 ∈ t.id2row
    · obtain ⟨i, hi⟩ := Space.hasWord_of_mem hw1
      obtain ⟨j, hj⟩ := Space.hasWord_of_mem hw2
      have hi' : s'.HasWord i w1 := by rw [Space.HasWord, hs.rows]; exact hi
      have hj' : t'.HasWord j w2 := by rw [Space.HasWord, ht.rows]; exact hj
      rw [Space.getSim_words2 (target := t) (space2 := some t) rfl h1 h3 hc hcc hi hj,
        Space.getSim_words2 (target := t') (space2 := some t') rfl h2 h4 hc' (by rw [hs.width, ht.width]; exact hcc) hi' hj', hs.width]
      obtain ⟨a, ha, ea⟩ := hs.scaled i (Space.word_lt h1 hi)
      obtain ⟨b, hb, eb⟩ := ht.scaled j (Space.word_lt h3 hj)
      rw [simVal_congr (sim := .cos) ea (fun k hk => eb k (hcc ▸ hk)), simVal_cos_scale ha hb]
    · rw [C08_missing s t (some t) .cos w1 w2 rfl h1 h3 hc (Or.inr hw2),
        C08_missing s' t' (some t') .cos w1 w2 rfl h2 h4 hc' (Or.inr (by rw [ht.rows]; exact hw2))]
  · rw [C08_missing s t (some t) .cos w1 w2 rfl h1 h3 hc (Or.inl hw1),
      C08_missing s' t' (some t') .cos w1 w2 rfl h2 h4 hc' (Or.inl (by rw [hs.rows]; exact hw1))]

/-- Asking for the similarity within one space is asking with the space itself as second space. -/
theorem getSim_none_some (s : Space κ) (w1 w2 : κ) (sim : Sim) : s.getSim w1 w2 sim none = s.getSim w1 w2 sim (some s) := rfl

/-- The scalings C101 is about: the normalisations; by sums only for non-negative matrices (a negative sum turns
vectors around). -/
def Normalises (st : ScalingT) (A : Mat ℝ) : Prop :=
  st = .rowNorm .length ∨ st = .norm .length ∨ ((st = .rowNorm .sum ∨ st = .norm .sum) ∧ NonNegative A)

theorem normalises_rowScaled {env : Env} {s s' : Space κ} {st : ScalingT} (hr : 0 < s.mat.nr) (hc : 0 < s.mat.nc)
    (hst : Normalises st s.mat.val) (h : s.apply env (.scaling st) = .ok s') : RowScaled s s' ∧ s'.WF := by
  obtain ⟨op, m, _, op', _, _, hrows, _, _, hwf, _⟩ := apply_eq_ok h
  obtain ⟨_, _, _, hnc, hap⟩ := C05_scaling_keeps_columns env s s' st hr h
  refine ⟨⟨hrows, hnc, ?_⟩, hwf⟩
  have hzero : ∀ {q : ℝ} {i : ℕ} {r : ℕ → ℝ}, (∀ j, j < s.mat.nc → r j = 0) → (∀ j, j < s.mat.nc → s.mat.val.get i j = 0) →
      ∃ a : ℝ, 0 < a ∧ ∀ j, j < s.mat.nc → r j = a * s.mat.val.get i j :=
    fun h1 h2 => ⟨1, one_pos, fun j hj => by rw [h1 j hj, h2 j hj, mul_zero]⟩
  have key : ∀ c, (c = .sum → NonNegative s.mat.val) → st = .rowNorm c → ∀ i, i < s.mat.nr →
      ∃ a : ℝ, 0 < a ∧ ∀ j, j < s.mat.nc → s'.mat.val.get i j = a * s.mat.val.get i j := by
    rintro c hcn rfl i hi
    obtain ⟨r, e1, _, _, _, e5, e6⟩ := C18_row_normalization c s.mat hr hc
    have : rowNormalization c s.mat = .ok s'.mat := hap
    rw [e1] at this
    obtain rfl := ok_inj this
    by_cases h0 : rowQuantity c s.mat.val i = 0
    · refine hzero (q := 0) (fun j _ => e6 i hi h0 j) ?_
      intro j hj
      cases c with
      | length =>
        have := (len2_eq_zero (n := s.mat.nc) (u := s.mat.val.get i)).1 h0
        exact this j hj
      | sum =>
        have hn := hcn rfl
        have := (Finset.sum_eq_zero_iff_of_nonneg (fun k hk => hn i k hi (Finset.mem_range.1 hk))).1 h0
        exact this j (Finset.mem_range.2 hj)
    · have hpos : 0 < rowQuantity c s.mat.val i := by
        refine lt_of_le_of_ne ?_ (Ne.symm h0)
        cases c with
        | length => exact Real.sqrt_nonneg _
        | sum => exact Finset.sum_nonneg (fun k hk => hcn rfl i k hi (Finset.mem_range.1 hk))
      refine ⟨(rowQuantity c s.mat.val i)⁻¹, inv_pos.2 hpos, fun j _ => ?_⟩
      rw [(e5 i hi h0).2 j, div_eq_mul_inv, mul_comm]
  have key2 : ∀ c, (c = .sum → NonNegative s.mat.val) → st = .norm c → ∀ i, i < s.mat.nr →
      ∃ a : ℝ, 0 < a ∧ ∀ j, j < s.mat.nc → s'.mat.val.get i j = a * s.mat.val.get i j := by
    rintro c hcn rfl i hi
    obtain ⟨r, e1, _, _, _, e5, e6⟩ := C19_normalization c s.mat hr hc
    have : normalization c s.mat none = .ok s'.mat := hap
    rw [e1] at this
    obtain rfl := ok_inj this
    by_cases h0 : matQuantity c s.mat.val = 0
    · rw [e6 h0]
      exact ⟨1, one_pos, fun j _ => by rw [one_mul]⟩
    · have hpos : 0 < matQuantity c s.mat.val := by
        refine lt_of_le_of_ne ?_ (Ne.symm h0)
        cases c with
        | length => exact Real.sqrt_nonneg _
        | sum => exact Finset.sum_nonneg (fun a ha => Finset.sum_nonneg
            (fun k hk => hcn rfl a k (Finset.mem_range.1 ha) (Finset.mem_range.1 hk)))
      refine ⟨(matQuantity c s.mat.val)⁻¹, inv_pos.2 hpos, fun j _ => ?_⟩
      rw [(e5 h0).2 i j, div_eq_mul_inv, mul_comm]
  rcases hst with h1 | h1 | ⟨h1 | h1, h2⟩
  · exact key .length (fun h => by cases h) h1
  · exact key2 .length (fun h => by cases h) h1
  · exact key .sum (fun _ => h2) h1
  · exact key2 .sum (fun _ => h2) h1

/-- **C101** normalising a space changes no cosine similarity between its words. -/
theorem C101_cosine_unchanged (env : Env) (s s' : Space κ) (st : ScalingT) (hwf : s.WF) (hr : 0 < s.mat.nr)
    (hc : 0 < s.mat.nc) (hst : Normalises st s.mat.val) (h : s.apply env (.scaling st) = .ok s') (w1 w2 : κ) :
    s'.getSim w1 w2 .cos none = s.getSim w1 w2 .cos none := by
  obtain ⟨h1, h2⟩ := normalises_rowScaled hr hc hst h
  exact rowScaled_cos h1 h1 hwf h2 hwf h2 hc rfl w1 w2

/-- **C101** the same across two spaces, normalised independently of each other. -/
theorem C101_cosine_two_spaces (env : Env) (s s' t t' : Space κ) (st st2 : ScalingT) (hwf : s.WF) (hwt : t.WF)
    (hr : 0 < s.mat.nr) (hrt : 0 < t.mat.nr) (hc : 0 < s.mat.nc) (hcc : s.mat.nc = t.mat.nc)
    (hst : Normalises st s.mat.val) (hst2 : Normalises st2 t.mat.val) (h : s.apply env (.scaling st) = .ok s')
    (h2 : t.apply env (.scaling st2) = .ok t') (w1 w2 : κ) :
    s'.getSim w1 w2 .cos (some t') = s.getSim w1 w2 .cos (some t) := by
  obtain ⟨a1, a2⟩ := normalises_rowScaled hr hc hst h
  obtain ⟨b1, b2⟩ := normalises_rowScaled hrt (hcc ▸ hc) hst2 h2
  exact rowScaled_cos a1 b1 hwf a2 hwt b2 hc hcc w1 w2

/-- **C101** the cosine neighbours, their scores and their order are unchanged too. -/
theorem C101_neighbours_unchanged (env : Env) (s s' : Space κ) (st : ScalingT) (hwf : s.WF) (hr : 0 < s.mat.nr)
    (hc : 0 < s.mat.nc) (hst : Normalises st s.mat.val) (h : s.apply env (.scaling st) = .ok s') (w : κ) (n : ℤ) :
    s'.getNeighbours w n .cos none = s.getNeighbours w n .cos none := by
  obtain ⟨h1, h2⟩ := normalises_rowScaled hr hc hst h
  by_cases hw : w ∈ s.id2row
  · obtain ⟨res, sc, e1, e2, e3⟩ := C09_top_n s s none .cos w n rfl hwf hwf hc rfl hw (by rw [← hwf.nrows]; exact hr)
    obtain ⟨res', sc', f1, f2, f3⟩ := C09_top_n s' s' none .cos w n rfl h2 h2 (by rw [h1.width]; exact hc) rfl
      (by rw [h1.rows]; exact hw) (by rw [h1.rows, ← hwf.nrows]; exact hr)
    rw [e1, f1]
    rw [h1.rows] at f2 f3
    rw [e3.unique (fun x hx => ?_) f3]
    have := C101_cosine_unchanged env s s' st hwf hr hc hst h w x
    rw [e2 x hx, f2 x hx] at this
    exact (ok_inj this).symm
  · rw [C09_unknown_word s none .cos w n hwf hw, C09_unknown_word s' none .cos w n h2 (by rw [h1.rows]; exact hw)]

/-- Non-vacuity of C101: the 2 × 3 space of counts, normalised by length. -/
example (env : Env) : ∃ s s' : Space String, s.WF ∧ Normalises (.rowNorm .length) s.mat.val ∧
    s.apply env (.scaling (.rowNorm .length)) = .ok s' ∧
    s'.getNeighbours "dog" 5 .cos none = s.getNeighbours "dog" 5 .cos none := by
  obtain ⟨s, hwf, hm, hr, hc, ho, hsh⟩ := ex_space .sparse
  have h1 : 0 < s.mat.nr := by rw [hm]; simp [exMat, TMat.nr]
  have h2 : 0 < s.mat.nc := by rw [hm]; simp [exMat, TMat.nc]
  have hnn : NonNegative s.mat.val := by
    rw [hm]
    intro i j hi hj
    have hi' : i < 2 := hi
    have hj' : j < 3 := hj
    show 0 ≤ (Mat.of 2 3 _).get i j
    rw [Mat.of_get_lt hi' hj']
    exact Nat.cast_nonneg _
  obtain ⟨s', hs'⟩ := (C05_apply_total env s hwf h1 h2).1 (.rowNorm .length) hnn
  exact ⟨s, s', hwf, Or.inl rfl, hs', C101_neighbours_unchanged env s s' _ hwf h1 h2 (Or.inl rfl) hs' "dog" 5⟩

/-! ## C102 -/

theorem Yields.same {r r' : Py (TMat ℝ)} {ty : MTy} {m n : ℕ} {f g : ℕ → ℕ → ℝ} (h : Yields r ty m n f)
    (h' : Yields r' ty m n g) (e : ∀ i j, i < m → j < n → f i j = g i j) : r = r' := by
  obtain ⟨u, rfl, a1, a2, a3, a4⟩ := h
  obtain ⟨v, rfl, b1, b2, b3, b4⟩ := h'
  refine congrArg _ (TMat.ext' (a1.trans b1.symm) (Mat.ext' (a2.trans b2.symm) (a3.trans b3.symm) ?_))
  intro i j hi hj
  have hi' : i < m := by rw [← a2]; exact hi
  have hj' : j < n := by rw [← a3]; exact hj
  rw [a4 i j hi' hj', b4 i j hi' hj', e i j hi' hj']

theorem smul_sums (A : Mat ℝ) (c : ℝ) : (A.smul c).total = c * A.total ∧ (∀ i, (A.smul c).rowSum i = c * A.rowSum i) ∧
    ∀ j, (A.smul c).colSum j = c * A.colSum j := by
  refine ⟨?_, fun i => ?_, fun j => ?_⟩
  · unfold Mat.total
    simp only [Mat.smul_nr, Mat.smul_nc, Mat.smul_get, Finset.mul_sum]
  · unfold Mat.rowSum
    simp only [Mat.smul_nc, Mat.smul_get, Finset.mul_sum]
  · unfold Mat.colSum
    simp only [Mat.smul_nr, Mat.smul_get, Finset.mul_sum]

theorem smul_nonneg_iff {A : Mat ℝ} {c : ℝ} (hc : 0 < c) : NonNegative (A.smul c) ↔ NonNegative A := by
  unfold NonNegative
  simp only [Mat.smul_nr, Mat.smul_nc, Mat.smul_get]
  exact ⟨fun h i j hi hj => by simpa [hc] using h i j hi hj, fun h i j hi hj => mul_nonneg hc.le (h i j hi hj)⟩

theorem smul_ratio {A : Mat ℝ} {c : ℝ} (hc : 0 < c) (i j : ℕ) :
    (A.smul c).get i j * (A.smul c).total / ((A.smul c).rowSum i * (A.smul c).colSum j) =
      A.get i j * A.total / (A.rowSum i * A.colSum j) := by
  obtain ⟨h1, h2, h3⟩ := smul_sums A c
  rw [h1, h2, h3, Mat.smul_get]
  rw [show c * A.get i j * (c * A.total) = (c * c) * (A.get i j * A.total) by ring,
    show c * A.rowSum i * (c * A.colSum j) = (c * c) * (A.rowSum i * A.colSum j) by ring,
    mul_div_mul_left _ _ (mul_pos hc hc).ne']

theorem smul_epmiSpec {A : Mat ℝ} {c : ℝ} (hc : 0 < c) (i j : ℕ) : epmiSpec (A.smul c) i j = epmiSpec A i j := by
  unfold epmiSpec
  rw [smul_ratio hc]
  simp [Mat.smul_get, hc.ne']

theorem smul_ppmiSpec {A : Mat ℝ} {c : ℝ} (hc : 0 < c) (i j : ℕ) : ppmiSpec (A.smul c) i j = ppmiSpec A i j := by
  unfold ppmiSpec
  rw [smul_ratio hc]
  simp [Mat.smul_get, hc.ne']

/-- **C102** multiplying all the counts of a matrix by one positive number (a corpus twice as large, counts per
million, …) changes neither EPMI nor PPMI. -/
theorem C102_epmi_ppmi (m m' : TMat ℝ) (c : ℝ) (hc : 0 < c) (h1 : 0 < m.nr) (h2 : 0 < m.nc)
    (hm : m.mulScalar c = .ok m') :
    ScalingT.epmi.apply m' none = ScalingT.epmi.apply m none ∧
    ScalingT.ppmi.apply m' none = ScalingT.ppmi.apply m none := by
  rw [TMat.mulScalar_ok c h1 h2] at hm
  obtain rfl := ok_inj hm
  simp only [ScalingT.apply]
  by_cases hn : NonNegative m.val
  · have hn' : NonNegative (m.val.smul c) := (smul_nonneg_iff hc).2 hn
    exact ⟨(C16_epmi (⟨m.ty, m.val.smul c⟩ : TMat ℝ) h1 h2 hn').same (C16_epmi m h1 h2 hn) (fun i j _ _ => smul_epmiSpec hc i j),
      (C16_ppmi (⟨m.ty, m.val.smul c⟩ : TMat ℝ) h1 h2 hn').same (C16_ppmi m h1 h2 hn) (fun i j _ _ => smul_ppmiSpec hc i j)⟩
  · have hn' : ¬ NonNegative (m.val.smul c) := fun h => hn ((smul_nonneg_iff hc).1 h)
    obtain ⟨a1, a2, _⟩ := C16_negative_rejected m none hn
    obtain ⟨b1, b2, _⟩ := C16_negative_rejected (⟨m.ty, m.val.smul c⟩ : TMat ℝ) none hn'
    exact ⟨a1 ▸ b1, a2 ▸ b2⟩

/-- **C102** PLMI is multiplied by that number. -/
theorem C102_plmi (m m' r : TMat ℝ) (c : ℝ) (hc : 0 < c) (h1 : 0 < m.nr) (h2 : 0 < m.nc)
    (hm : m.mulScalar c = .ok m') (hr : ScalingT.plmi.apply m none = .ok r) :
    ScalingT.plmi.apply m' none = r.mulScalar c := by
  rw [TMat.mulScalar_ok c h1 h2] at hm
  obtain rfl := ok_inj hm
  simp only [ScalingT.apply] at hr ⊢
  have hn : NonNegative m.val := by
    by_contra hn
    rw [(C16_negative_rejected m none hn).2.2] at hr
    cases hr
  have hn' : NonNegative (m.val.smul c) := (smul_nonneg_iff hc).2 hn
  obtain ⟨u, e1, e2, e3, e4, e5⟩ := C16_plmi m h1 h2 hn
  rw [hr] at e1
  obtain rfl := ok_inj e1
  have hy := C16_plmi (⟨m.ty, m.val.smul c⟩ : TMat ℝ) h1 h2 hn'
  refine hy.same (g := fun i j => c * r.val.get i j) ⟨⟨r.ty, r.val.smul c⟩, TMat.mulScalar_ok c (by rw [e3]; exact h1) (by rw [e4]; exact h2), e2, e3, e4,
    fun i j _ _ => Mat.smul_get ..⟩ ?_
  intro i j hi hj
  rw [smul_ppmiSpec hc, e5 i j hi hj, Mat.smul_get]
  ring

/-- **C102** the normalisations forget the factor as well. -/
theorem C102_normalisations (m m' : TMat ℝ) (c : ℝ) (hc : 0 < c) (h1 : 0 < m.nr) (h2 : 0 < m.nc) (k : Crit)
    (hm : m.mulScalar c = .ok m') :
    (ScalingT.rowNorm k).apply m' none = (ScalingT.rowNorm k).apply m none ∧
    (matQuantity k m.val ≠ 0 → (ScalingT.norm k).apply m' none = (ScalingT.norm k).apply m none) := by
  rw [TMat.mulScalar_ok c h1 h2] at hm
  obtain rfl := ok_inj hm
  simp only [ScalingT.apply]
  have hrow : ∀ i, rowQuantity k (m.val.smul c) i = c * rowQuantity k m.val i := by
    intro i
    cases k with
    | length => exact len2_smul hc
    | sum => exact (smul_sums m.val c).2.1 i
  have hmat : matQuantity k (m.val.smul c) = c * matQuantity k m.val := by
    cases k with
    | length =>
      simp only [matQuantity, Mat.smul_nr, Mat.smul_nc, Mat.smul_get, mul_pow, ← Finset.mul_sum]
      rw [Real.sqrt_mul (sq_nonneg c), Real.sqrt_sq hc.le]
    | sum => exact (smul_sums m.val c).1
  constructor
  · obtain ⟨r, a1, a2, a3, a4, a5, a6⟩ := C18_row_normalization k m h1 h2
    obtain ⟨r', b1, b2, b3, b4, b5, b6⟩ := C18_row_normalization k (⟨m.ty, m.val.smul c⟩ : TMat ℝ) h1 h2
    rw [a1, b1]
    refine congrArg _ (TMat.ext' (b2.trans a2.symm) (Mat.ext' (b3.trans a3.symm) (b4.trans a4.symm) ?_))
    intro i j hi hj
    have hi' : i < m.nr := by have h := hi; rw [show r'.val.nr = m.nr from b3] at h; exact h
    by_cases h0 : rowQuantity k m.val i = 0
    · rw [a6 i hi' h0 j, b6 i hi' (by rw [hrow, h0, mul_zero]) j]
    · rw [(a5 i hi' h0).2 j, (b5 i hi' (by rw [hrow]; exact mul_ne_zero hc.ne' h0)).2 j, hrow, Mat.smul_get,
        mul_div_mul_left _ _ hc.ne']
  · intro h0
    obtain ⟨r, a1, a2, a3, a4, a5, a6⟩ := C19_normalization k m h1 h2
    obtain ⟨r', b1, b2, b3, b4, b5, b6⟩ := C19_normalization k (⟨m.ty, m.val.smul c⟩ : TMat ℝ) h1 h2
    rw [a1, b1]
    refine congrArg _ (TMat.ext' (b2.trans a2.symm) (Mat.ext' (b3.trans a3.symm) (b4.trans a4.symm) ?_))
    intro i j hi hj
    rw [(a5 h0).2 i j, (b5 (by rw [hmat]; exact mul_ne_zero hc.ne' h0)).2 i j, hmat, Mat.smul_get,
      mul_div_mul_left _ _ hc.ne']

example : ∃ m m' : TMat ℝ, m.mulScalar 2 = .ok m' ∧ 0 < m.nr ∧ 0 < m.nc ∧ NonNegative m.val ∧ m.val.get 1 2 ≠ 0 := by
  refine ⟨exMat .sparse, _, TMat.mulScalar_ok 2 (by simp [exMat, TMat.nr]) (by simp [exMat, TMat.nc]),
    by simp [exMat, TMat.nr], by simp [exMat, TMat.nc], ?_, ?_⟩
  · intro i j hi hj
    have hi' : i < 2 := hi
    have hj' : j < 3 := hj
    show 0 ≤ (Mat.of 2 3 _).get i j
    rw [Mat.of_get_lt hi' hj']
    exact Nat.cast_nonneg _
  · simp [exMat, Mat.of_get]; norm_num

/-! ## C103 -/

/-- The two spaces hold the same words with the same vectors, in possibly different order. -/
structure SameWords (s t : Space κ) : Prop where
  rows : s.id2row.Perm t.id2row
  vectors : ∀ w, s.getRow w = t.getRow w
  cols : s.id2col = t.id2col
  shape : s.elemShape = t.elemShape

/-- The rows of `t` are the rows of `s` in the order `ks`. -/
theorem SameWords.reorder {s t : Space κ} (hs : s.WF) (ht : t.WF) (hr : 0 < s.mat.nr) (hc : 0 < s.mat.nc)
    (hct : 0 < t.mat.nc) (h : SameWords s t) :
    ∃ ks : List ℕ, ks.Perm (List.range s.mat.nr) ∧ t.mat = ⟨s.mat.ty, s.mat.val.selRows ks⟩ ∧
      ks = t.id2row.map (fun w => s.id2row.idxOf w) := by
  set ks := t.id2row.map (fun w => s.id2row.idxOf w) with hks
  have hword : ∀ w ∈ t.id2row, s.HasWord (s.id2row.idxOf w) w := by
    intro w hw
    have hw' := h.rows.mem_iff.2 hw
    have hlt := List.idxOf_lt_length_of_mem hw'
    rw [Space.HasWord, List.getElem?_eq_getElem hlt, List.getElem_idxOf hlt]
  have hvec : ∀ i w, t.HasWord i w → (⟨s.mat.ty, s.mat.val.row (s.id2row.idxOf w)⟩ : TMat ℝ) = ⟨t.mat.ty, t.mat.val.row i⟩ := by
    intro i w hi
    have hw : w ∈ t.id2row := List.mem_of_getElem? hi
    have := h.vectors w
    rw [Space.row_of_word hs hc (hword w hw), Space.row_of_word ht hct hi] at this
    exact ok_inj this
  have hperm : ks.Perm (List.range s.mat.nr) := by
    have h1 : ks.Perm (s.id2row.map (fun w => s.id2row.idxOf w)) := (h.rows.map _).symm
    refine h1.trans ?_
    have : s.id2row.map (fun w => s.id2row.idxOf w) = List.range s.mat.nr := by
      refine List.ext_getElem (by simp [hs.nrows]) (fun i h1 h2 => ?_)
      simp only [List.getElem_map, List.getElem_range]
      exact hs.rows.nodup.idxOf_getElem i (by simpa using h1)
    rw [this]
  have hlen : t.mat.nr = ks.length := by rw [ht.nrows, hks, List.length_map]
  obtain ⟨w0, hw0⟩ : ∃ w, t.HasWord 0 w := by
    have : 0 < t.id2row.length := by
      rw [← h.rows.length_eq, ← hs.nrows]; exact hr
    exact ⟨_, List.getElem?_eq_getElem this⟩
  have e0 := hvec 0 w0 hw0
  simp only [TMat.mk.injEq] at e0
  have hty : s.mat.ty = t.mat.ty := e0.1
  have hnc : s.mat.nc = t.mat.nc := congrArg Mat.nc (a₁ := s.mat.val.row (s.id2row.idxOf w0)) (a₂ := t.mat.val.row 0) e0.2
  refine ⟨ks, hperm, TMat.ext' hty.symm (Mat.ext' hlen hnc.symm ?_), rfl⟩
  intro i j hi hj
  have hi' : i < t.id2row.length := by rw [← ht.nrows]; exact hi
  have hw : t.HasWord i t.id2row[i] := List.getElem?_eq_getElem hi'
  have e := congrArg (fun m : TMat ℝ => m.val.get 0 j) (hvec i _ hw)
  have hk : ks[i]? = some (s.id2row.idxOf t.id2row[i]) := by
    rw [hks, List.getElem?_map, List.getElem?_eq_getElem hi']; rfl
  show t.mat.val.get i j = (s.mat.val.selRows ks).get i j
  rw [Mat.selRows_get_some hk]
  simpa only [Mat.row_get_zero] using e.symm

theorem sum_selRows (A : Mat ℝ) {ks : List ℕ} (h : ks.Perm (List.range A.nr)) (F : (ℕ → ℝ) → ℝ) :
    ∑ i ∈ range (A.selRows ks).nr, F ((A.selRows ks).get i) = ∑ i ∈ range A.nr, F (A.get i) := by
  have e1 : ∀ (l : List ℕ), ∑ i ∈ range l.length, F ((A.selRows l).get i) = (l.map (fun k => F (A.get k))).sum := by
    intro l
    rw [Finset.sum_range, ← Fin.sum_univ_fun_getElem]
    refine Finset.sum_congr rfl (fun i _ => ?_)
    congr 1
    funext c
    exact Mat.selRows_get_some (List.getElem?_eq_getElem i.2) c
  have e2 : ∑ i ∈ range A.nr, F (A.get i) = ((List.range A.nr).map (fun k => F (A.get k))).sum := by
    rfl
  rw [Mat.selRows_nr, e1, e2]
  exact (h.map _).sum_eq

theorem selRows_stats (m : TMat ℝ) {ks : List ℕ} (h : ks.Perm (List.range m.nr)) :
    (⟨m.ty, m.val.selRows ks⟩ : TMat ℝ).sum0 = m.sum0 ∧ (⟨m.ty, m.val.selRows ks⟩ : TMat ℝ).norm0 = m.norm0 ∧
    ∀ c, normTotal c ⟨m.ty, m.val.selRows ks⟩ = normTotal c m := by
  refine ⟨?_, ?_, fun c => ?_⟩
  · unfold TMat.sum0
    congr 1
    refine List.map_congr_left (fun j _ => ?_)
    exact sum_selRows m.val h (fun x => x j)
  · unfold TMat.norm0
    congr 1
    refine List.map_congr_left (fun j _ => ?_)
    congr 1
    unfold Mat.colSum
    simp only [Mat.had_nr, Mat.had_get]
    exact sum_selRows m.val h (fun x => x j * x j)
  · cases c with
    | length =>
      unfold normTotal TMat.norm
      simp only
      congr 1
      exact sum_selRows m.val h (fun x => ∑ j ∈ range m.val.nc, x j ^ 2)
    | sum => exact sum_selRows m.val h (fun x => ∑ j ∈ range m.val.nc, x j)

/-- Scalings and feature selection treat the rows alike, and their statistics do not depend on the order of the rows. -/
theorem opApply_selRows {env : Env} {tr : Trans} (htr : (∃ st, tr = .scaling st) ∨ ∃ k c, 0 < k ∧ tr = .featsel k c)
    {m r : TMat ℝ} {op : Op κ} (hr : 0 < m.nr) {ks : List ℕ} (h : ks.Perm (List.range m.nr))
    (ha : (tr.createOp : Op κ).apply env m = .ok (op, r)) :
    (tr.createOp : Op κ).apply env ⟨m.ty, m.val.selRows ks⟩ = .ok (op, ⟨r.ty, r.val.selRows ks⟩) ∧ r.nr = m.nr := by
  have hk : ∀ k ∈ ks, k < m.nr := fun k hk => List.mem_range.1 (h.mem_iff.1 hk)
  have hr' : 0 < (⟨m.ty, m.val.selRows ks⟩ : TMat ℝ).nr := by
    show 0 < (m.val.selRows ks).nr
    rw [Mat.selRows_nr, h.length_eq, List.length_range]; exact hr
  obtain ⟨e1, e2, e3⟩ := selRows_stats m h
  have key : ∀ {R : RowMap} {g : TMat ℝ → Py (TMat ℝ)} {r : TMat ℝ}, R.Models g → g m = .ok r →
      g ⟨m.ty, m.val.selRows ks⟩ = .ok ⟨r.ty, r.val.selRows ks⟩ ∧ r.nr = m.nr := by
    intro R g r hm hg
    obtain ⟨hgood, rfl⟩ := hm.eq_ok hr hg
    refine ⟨?_, rfl⟩
    rw [(hm _ hr').1 (RowMap.good_selRows R m ks hk hgood), RowMap.out_selRows R m ks hk]
  rcases htr with ⟨st, rfl⟩ | ⟨k, c, hkp, rfl⟩
  · obtain ⟨rfl, hst⟩ := opApply_scaling ha
    have hst' : st.apply ⟨m.ty, m.val.selRows ks⟩ none = .ok ⟨r.ty, r.val.selRows ks⟩ ∧ r.nr = m.nr := by
      cases st with
      | epmi =>
        have := key (models_epmi m.sum0) (r := r) hst
        rw [← e1] at this
        exact ⟨by rw [e1] at this; exact (show epmi _ (some (⟨m.ty, m.val.selRows ks⟩ : TMat ℝ).sum0) = _ by rw [e1]; exact this.1), this.2⟩
      | ppmi =>
        have := key (models_ppmi m.sum0) (r := r) hst
        exact ⟨(show ppmi _ (some (⟨m.ty, m.val.selRows ks⟩ : TMat ℝ).sum0) = _ by rw [e1]; exact this.1), this.2⟩
      | plmi =>
        have := key (models_plmi m.sum0) (r := r) hst
        exact ⟨(show plmi _ (some (⟨m.ty, m.val.selRows ks⟩ : TMat ℝ).sum0) = _ by rw [e1]; exact this.1), this.2⟩
      | plog => exact key models_plogW hst
      | rowNorm c => exact key (models_rowNorm c) hst
      | norm c =>
        have := key (models_norm c (normTotal c m)) (r := r) hst
        exact ⟨(show normalization c _ (some (normTotal c (⟨m.ty, m.val.selRows ks⟩ : TMat ℝ))) = _ by rw [e3]; exact this.1), this.2⟩
    have hstats : st.columnStats ⟨m.ty, m.val.selRows ks⟩ = st.columnStats m := by
      cases st <;> simp only [ScalingT.columnStats, e1, e3]
    refine ⟨?_, hst'.2⟩
    simp only [Trans.createOp, Op.apply, hst'.1, ok_bind, pure_eq_ok, hstats]
  · obtain ⟨sel, htf, rfl⟩ := opApply_featsel ha
    have hsel : ∀ (x : TMat ℝ) (q : List ℕ), (sortedPermutation (match c with | .sum => x.sum0 | .length => x.norm0)).take
        (min k x.nc) = q → topFeatureSelection k c x = (do let r ← x.getCols q; return (r, q)) := by
      rintro x q rfl
      rfl
    have h0 := htf
    rw [hsel m _ rfl, bind_eq_ok] at h0
    obtain ⟨r1, h1, h2⟩ := h0
    have h3 := ok_inj h2
    simp only [Prod.mk.injEq] at h3
    obtain ⟨rfl, hq⟩ := h3
    rw [hq] at h1
    have := key (models_cols sel) h1
    refine ⟨?_, this.2⟩
    have htf' : topFeatureSelection k c ⟨m.ty, m.val.selRows ks⟩ = .ok (⟨r1.ty, r1.val.selRows ks⟩, sel) := by
      rw [hsel (⟨m.ty, m.val.selRows ks⟩ : TMat ℝ) sel (by rw [e1, e2]; exact hq), this.1]
      rfl
    simp only [Trans.createOp, Op.apply, htf', ok_bind, pure_eq_ok]

/-- **C103** one scaling or feature selection applied to the same words in a different order gives the same vectors. -/
theorem C103_row_order (env : Env) (tr : Trans) (htr : (∃ st, tr = .scaling st) ∨ ∃ k c, 0 < k ∧ tr = .featsel k c)
    (s t s' : Space κ) (hs : s.WF) (ht : t.WF) (hr : 0 < s.mat.nr) (hc : 0 < s.mat.nc) (hct : 0 < t.mat.nc)
    (h : SameWords s t) (ha : s.apply env tr = .ok s') :
    ∃ t', t.apply env tr = .ok t' ∧ SameWords s' t' ∧ s'.WF ∧ t'.WF ∧ s'.mat.nr = s.mat.nr ∧
      0 < s'.mat.nc ∧ 0 < t'.mat.nc := by
  obtain ⟨ks, hks, htm, hdef⟩ := h.reorder hs ht hr hc hct
  obtain ⟨op, m, hop, op', o1, o2, o3, o4, o5, o6, o7, o8, o9⟩ := apply_eq_ok ha
  obtain ⟨hop', hnr⟩ := opApply_selRows htr hr hks hop
  have hlen : ks.length = t.id2row.length := by rw [hdef, List.length_map]
  have hpos : 0 < m.nc := by
    rcases htr with ⟨st, rfl⟩ | ⟨k, c, hk, rfl⟩
    · rw [(applyT_shape hr (opApply_scaling hop).2).2.2]; exact hc
    · obtain ⟨sel, htf, _⟩ := opApply_featsel hop
      obtain ⟨hb, _, rfl⟩ := topFeatureSelection_ok htf
      show 0 < sel.length
      rw [hb.count]
      exact lt_min hk hc
  have hfin : ∀ t', t'.mat = ⟨m.ty, m.val.selRows ks⟩ → t'.id2row = t.id2row → t'.id2col = s'.id2col →
      t'.elemShape = [m.nc] → t'.WF → SameWords s' t' := by
    intro t' a1 a2 a3 a4 a5
    refine ⟨by rw [o3, a2]; exact h.rows, ?_, a3.symm, by rw [o5, a4]⟩
    intro w
    by_cases hw : w ∈ t.id2row
    · have hws : w ∈ s.id2row := h.rows.mem_iff.2 hw
      have hlt := List.idxOf_lt_length_of_mem hws
      have hws' : s'.HasWord (s.id2row.idxOf w) w := by
        rw [Space.HasWord, o3, List.getElem?_eq_getElem hlt, List.getElem_idxOf hlt]
      obtain ⟨i, hi⟩ := Space.hasWord_of_mem hw
      have hi' : t'.HasWord i w := by rw [Space.HasWord, a2]; exact hi
      rw [Space.row_of_word o6 (by rw [o2]; exact hpos) hws', Space.row_of_word a5 (by rw [a1]; exact hpos) hi', o2, a1]
      refine congrArg _ (TMat.ext' rfl (Mat.ext' rfl rfl (fun a b ha hb => ?_)))
      have ha0 : a = 0 := by
        have : a < 1 := ha
        omega
      subst ha0
      have hk : ks[i]? = some (s.id2row.idxOf w) := by
        rw [hdef, List.getElem?_map, hi]; rfl
      show m.val.get _ b = (m.val.selRows ks).get i b
      rw [Mat.selRows_get_some hk]
    · rw [Space.getRow_missing a5 (by rw [a2]; exact hw),
        Space.getRow_missing o6 (by rw [o3]; exact fun hx => hw (h.rows.mem_iff.1 hx))]
  have hnr' : (⟨m.ty, m.val.selRows ks⟩ : TMat ℝ).nr = t.id2row.length := hlen
  have hsnr : s'.mat.nr = s.mat.nr := by rw [o2]; exact hnr
  rw [← htm] at hop'
  rcases htr with ⟨st, rfl⟩ | ⟨k, c, hk, rfl⟩
  · obtain ⟨rfl, _⟩ := opApply_scaling hop
    simp only at o7
    subst o7
    simp only [stepCols] at o8
    have o8' := ok_inj o8
    simp only [Prod.mk.injEq] at o8'
    have hcols : t.id2col ≠ [] → (⟨m.ty, m.val.selRows ks⟩ : TMat ℝ).nc = t.id2col.length := by
      intro hne
      have e : s'.id2col = t.id2col := by rw [← o8'.1]; exact h.cols
      have := o6.ncols (by rw [e]; exact hne)
      rw [o2, e] at this
      exact this
    have hnew := Space.new_ok (ops := t.ops ++ [.scaling st (if st.usesStats then some (st.columnStats s.mat) else none)])
      (sh := none) (Space.resolveMap_some ht.rows) (Space.resolveMap_some ht.cols) hnr' hcols (by simp)
    have hap : t.apply env (.scaling st) = Space.new ⟨m.ty, m.val.selRows ks⟩ t.id2row t.id2col (some t.row2id)
        (some t.col2id) (t.ops ++ [.scaling st (if st.usesStats then some (st.columnStats s.mat) else none)]) none := by
      unfold Space.apply
      rw [hop']
      rfl
    rw [hnew] at hap
    have hwf := (Space.new_eq_ok hnew).2.2.2.2.2.2.2
    refine ⟨_, hap, hfin _ rfl rfl ?_ rfl hwf, o6, hwf, hsnr, by rw [o2]; exact hpos, hpos⟩
    exact h.cols.symm.trans o8'.1
  · obtain ⟨sel, _, rfl⟩ := opApply_featsel hop
    simp only at o7
    subst o7
    simp only [stepCols] at o8
    have hassert : t.assert1dim = .ok () := by
      have : s.elemShape.length ≤ 1 := by
        rcases o9 with ⟨st, u, h9⟩ | h9
        · cases h9
        · exact h9
      unfold Space.assert1dim
      rw [if_neg (by rw [← h.shape]; omega)]
    have hcols : s'.id2col ≠ [] → (⟨m.ty, m.val.selRows ks⟩ : TMat ℝ).nc = s'.id2col.length := by
      intro hne
      have := o6.ncols hne
      rw [o2] at this
      exact this
    have hnew := Space.new_ok (ops := t.ops ++ [.featsel k c (some sel) (some t.id2col)])
      (sh := none) (Space.resolveMap_some ht.rows) (Space.resolveMap_some o6.cols) hnr' hcols (by simp)
    have hap : t.apply env (.featsel k c) = Space.new ⟨m.ty, m.val.selRows ks⟩ t.id2row s'.id2col (some t.row2id)
        (some s'.col2id) (t.ops ++ [.featsel k c (some sel) (some t.id2col)]) none := by
      unfold Space.apply
      rw [hop']
      simp only [ok_bind, hassert]
      rw [← h.cols, o8]
      rfl
    rw [hnew] at hap
    have hwf := (Space.new_eq_ok hnew).2.2.2.2.2.2.2
    exact ⟨_, hap, hfin _ rfl rfl rfl rfl hwf, o6, hwf, hsnr, by rw [o2]; exact hpos, hpos⟩

/-- **C103** so does any sequence of them, and the similarities of all words, by every measure, agree. -/
theorem C103_sequences (env : Env) (ts : List Trans)
    (hts : ∀ tr ∈ ts, (∃ st, tr = .scaling st) ∨ ∃ k c, 0 < k ∧ tr = .featsel k c)
    (s t s' : Space κ) (hs : s.WF) (ht : t.WF) (hr : 0 < s.mat.nr) (hc : 0 < s.mat.nc) (hct : 0 < t.mat.nc)
    (h : SameWords s t) (ha : s.applyAll env ts = .ok s') :
    ∃ t', t.applyAll env ts = .ok t' ∧ SameWords s' t' ∧
      ∀ sim w1 w2, s'.getSim w1 w2 sim none = t'.getSim w1 w2 sim none := by
  induction ts generalizing s t with
  | nil =>
    obtain rfl := ok_inj ha
    refine ⟨t, rfl, h, fun sim w1 w2 => ?_⟩
    unfold Space.getSim
    have e : ∀ w, s.getRowOpt w = t.getRowOpt w := by
      intro w
      unfold Space.getRowOpt
      rw [h.vectors w]
    simp only [Option.getD_none, e]
  | cons tr ts ih =>
    simp only [Space.applyAll, bind_eq_ok] at ha
    obtain ⟨s1, h1, h2⟩ := ha
    obtain ⟨t1, a1, a2, a3, a4, a5, a6, a7⟩ := C103_row_order env tr (hts tr List.mem_cons_self) s t s1 hs ht hr hc hct h h1
    obtain ⟨t', b1, b2, b3⟩ := ih (fun x hx => hts x (List.mem_cons_of_mem _ hx)) s1 t1 a3 a4 (by rw [a5]; exact hr) a6 a7 a2 h2
    refine ⟨t', ?_, b2, b3⟩
    simp only [Space.applyAll, a1, ok_bind, b1]

/-- Non-vacuity of C103: two orders of the same two words. -/
theorem ex_same_words : ∃ s t : Space String, s.WF ∧ t.WF ∧ SameWords s t ∧ s.id2row ≠ t.id2row ∧ 0 < s.mat.nr ∧ 0 < s.mat.nc ∧
    NonNegative s.mat.val := by
  obtain ⟨s, hs, hm, hr, hc, _, hsh⟩ := ex_space_plain .dense
  obtain ⟨t, ht0⟩ := (C01_accepts_iff (⟨.dense, (exMat .dense).val.selRows [1, 0]⟩ : TMat ℝ) ["cat", "dog"] ([] : List String)
    none none [] none).2 ⟨by simp, by simp, by simp, by simp, rfl, by simp, by simp⟩
  obtain ⟨ht, htm, htr, htc, _, htsh, _⟩ := C01_result _ _ _ _ _ _ _ t ht0
  refine ⟨s, t, hs, ht, ⟨?_, ?_, by rw [hc, htc], ?_⟩, by rw [hr, htr]; simp, by rw [hm]; simp [exMat, TMat.nr], by rw [hm]; simp [exMat, TMat.nc], ?_⟩
  · rw [hr, htr]; exact List.Perm.swap _ _ _
  · intro w
    have c1 : 0 < s.mat.nc := by rw [hm]; simp [exMat, TMat.nc]
    have c2 : 0 < t.mat.nc := by rw [htm]; simp [exMat, TMat.nc]
    by_cases h1 : w = "dog"
    · subst h1
      rw [Space.row_of_word hs c1 (i := 0) (by rw [Space.HasWord, hr]; rfl),
        Space.row_of_word ht c2 (i := 1) (by rw [Space.HasWord, htr]; rfl), hm, htm]
      refine congrArg _ (TMat.ext' rfl (Mat.ext' rfl rfl (fun a b ha _ => ?_)))
      have : a < 1 := ha
      obtain rfl : a = 0 := by omega
      rw [Mat.row_get_zero, Mat.row_get_zero, Mat.selRows_get_some (rows := [1, 0]) (i := 1) (r := 0) rfl]
    · by_cases h2 : w = "cat"
      · subst h2
        rw [Space.row_of_word hs c1 (i := 1) (by rw [Space.HasWord, hr]; rfl),
          Space.row_of_word ht c2 (i := 0) (by rw [Space.HasWord, htr]; rfl), hm, htm]
        refine congrArg _ (TMat.ext' rfl (Mat.ext' rfl rfl (fun a b ha _ => ?_)))
        have : a < 1 := ha
        obtain rfl : a = 0 := by omega
        rw [Mat.row_get_zero, Mat.row_get_zero, Mat.selRows_get_some (rows := [1, 0]) (i := 0) (r := 1) rfl]
      · rw [Space.getRow_missing hs (by rw [hr]; simp [h1, h2]), Space.getRow_missing ht (by rw [htr]; simp [h1, h2])]
  · rw [hsh, htsh]; rfl
  · rw [hm]
    intro i j hi hj
    rw [exMat, Mat.of_get]
    split <;> positivity

/-! ## C104 -/

theorem simVal_cos_le_one (n : ℕ) (u v : ℕ → ℝ) : simVal .cos n u v ≤ 1 := by
  simp only [simVal]
  split
  · exact zero_le_one
  · rename_i h
    push Not at h
    have h1 : 0 < len2 n u := lt_of_le_of_ne (Real.sqrt_nonneg _) (Ne.symm h.1)
    have h2 : 0 < len2 n v := lt_of_le_of_ne (Real.sqrt_nonneg _) (Ne.symm h.2)
    rw [div_le_one (mul_pos h1 h2)]
    exact (le_abs_self _).trans (abs_inner_le n u v)

theorem simVal_cos_self {n : ℕ} {u : ℕ → ℝ} (h : len2 n u ≠ 0) : simVal .cos n u u = 1 := by
  simp only [simVal, h, or_self, if_false]
  have : inner n u u = len2 n u * len2 n u := by
    unfold len2 inner
    rw [Real.mul_self_sqrt (Finset.sum_nonneg (fun j _ => sq_nonneg _))]
    exact Finset.sum_congr rfl (fun j _ => (pow_two _).symm)
  rw [this, div_self (mul_ne_zero h h)]

theorem simVal_euclid_le_one (n : ℕ) (u v : ℕ → ℝ) : simVal .euclid n u v ≤ 1 := by
  simp only [simVal]
  have h : 0 ≤ len2 n (fun j => u j - v j) := Real.sqrt_nonneg _
  rw [div_le_one (by linarith)]
  linarith

theorem simVal_euclid_self (n : ℕ) (u : ℕ → ℝ) : simVal .euclid n u u = 1 := by
  simp [simVal, len2]

/-- **C104** a word is its own nearest neighbour: by Euclidean similarity always, by cosine when its vector is not
zero. The best score is exactly 1; the word itself is in the list unless the list is full of words that are as near
(and come before it in the space); and no score in the list exceeds 1. -/
theorem C104_own_neighbour (s : Space κ) (sim : Sim) (w : κ) (n : ℤ) (h : s.WF) (hc : 0 < s.mat.nc) (i : ℕ)
    (hw : s.HasWord i w)
    (hsim : sim = .euclid ∨ (sim = .cos ∧ ∃ j, j < s.mat.nc ∧ s.mat.val.get i j ≠ 0)) (hn : 0 < n) :
    s.getSim w w sim none = .ok 1 ∧
    ∃ res, s.getNeighbours w n sim none = .ok res ∧ (∃ p, res.head? = some p ∧ p.2 = 1) ∧
      ((w, 1) ∈ res ∨ ∀ p ∈ res, p.2 = 1 ∧ s.id2row.idxOf p.1 < i) ∧ (∀ p ∈ res, p.2 ≤ 1) ∧
      ((s.id2row.length : ℤ) ≤ n → (w, 1) ∈ res) := by
  have hmem : w ∈ s.id2row := List.mem_of_getElem? hw
  have hlt : i < s.id2row.length := (List.getElem?_eq_some_iff.1 hw).1
  have hidx : s.id2row.idxOf w = i := by
    have e : s.id2row[i] = w := by
      have hw2 : s.id2row[i]? = some w := hw
      rw [List.getElem?_eq_getElem hlt] at hw2
      exact Option.some.inj hw2
    rw [← e]
    exact h.rows.nodup.idxOf_getElem i hlt
  have hself : s.getSim w w sim none = .ok 1 := by
    rw [Space.getSim_words2 (target := s) rfl h h hc rfl hw hw]
    rcases hsim with rfl | ⟨rfl, j, hj, h0⟩
    · rw [simVal_euclid_self]
    · rw [simVal_cos_self]
      intro hz
      exact h0 (len2_eq_zero.1 hz j hj)
  have hle : ∀ x ∈ s.id2row, ∀ v, s.getSim w x sim none = .ok v → v ≤ 1 := by
    intro x hx v hv
    obtain ⟨k, hk⟩ := Space.hasWord_of_mem hx
    rw [Space.getSim_words2 (target := s) rfl h h hc rfl hw hk] at hv
    rw [← ok_inj hv]
    rcases hsim with rfl | ⟨rfl, _⟩
    · exact simVal_euclid_le_one ..
    · exact simVal_cos_le_one ..
  obtain ⟨res, sc, e1, e2, e3⟩ := C09_top_n s s none sim w n rfl h h hc rfl hmem (by omega)
  have hscw : sc w = 1 := by
    have := e2 w hmem
    rw [hself] at this
    exact (ok_inj this).symm
  have hsc : ∀ x ∈ s.id2row, sc x ≤ 1 := fun x hx => hle x hx _ (e2 x hx)
  have hres : ∀ p ∈ res, p.2 ≤ 1 := by
    intro p hp
    rw [(e3.entries p hp).2]
    exact hsc _ (e3.entries p hp).1
  have hnot : w ∉ res.map Prod.fst → ∀ p ∈ res, p.2 = 1 ∧ s.id2row.idxOf p.1 < i := by
    intro hnw p hp
    have hb := e3.best p hp w hmem hnw
    have := hres p hp
    unfold RanksBefore at hb
    simp only [hscw, hidx] at hb
    rcases hb with hb | ⟨hb, hb'⟩
    · exact absurd hb (by linarith)
    · exact ⟨hb.symm, hb'⟩
  have hin : w ∈ res.map Prod.fst → (w, 1) ∈ res := by
    intro hm
    obtain ⟨q, hq, rfl⟩ := List.mem_map.1 hm
    have : q = (q.1, 1) := Prod.ext rfl (by rw [(e3.entries q hq).2, hscw])
    rw [← this]; exact hq
  have hor : (w, 1) ∈ res ∨ ∀ p ∈ res, p.2 = 1 ∧ s.id2row.idxOf p.1 < i := by
    by_cases hm : w ∈ res.map Prod.fst
    · exact Or.inl (hin hm)
    · exact Or.inr (hnot hm)
  have hpos : 0 < res.length := by
    have := e3.length
    omega
  obtain ⟨p, rest, hpr⟩ : ∃ p rest, res = p :: rest := by
    cases res with
    | nil => simp at hpos
    | cons p rest => exact ⟨p, rest, rfl⟩
  refine ⟨hself, res, e1, ⟨p, by rw [hpr]; rfl, ?_⟩, hor, hres, ?_⟩
  · rcases hor with hm | hall
    · rw [hpr, List.mem_cons] at hm
      rcases hm with rfl | hm
      · rfl
      · have hord := e3.ordered
        rw [hpr, List.pairwise_cons] at hord
        have hb := hord.1 _ hm
        have := hres p (by rw [hpr]; exact List.mem_cons_self)
        unfold RanksBefore at hb
        rcases hb with hb | ⟨hb, _⟩
        · exact absurd hb (by simp only; linarith)
        · exact hb.symm
    · exact (hall p (by rw [hpr]; exact List.mem_cons_self)).1
  · intro hfull
    apply hin
    by_contra hnw
    have hsub : (w :: res.map Prod.fst) ⊆ s.id2row := by
      intro x hx
      rcases List.mem_cons.1 hx with rfl | hx
      · exact hmem
      · obtain ⟨q, hq, rfl⟩ := List.mem_map.1 hx
        exact (e3.entries q hq).1
    have hnd : (w :: res.map Prod.fst).Nodup := List.nodup_cons.2 ⟨hnw, e3.distinct⟩
    have := (List.subperm_of_subset hnd hsub).length_le
    simp only [List.length_cons, List.length_map] at this
    have := e3.length
    omega

example : ∃ s : Space String, s.WF ∧ 0 < s.mat.nc ∧ s.HasWord 1 "cat" ∧ ∃ j, j < s.mat.nc ∧ s.mat.val.get 1 j ≠ 0 := by
  obtain ⟨s, hs, hm, hr, _⟩ := ex_space .dense
  refine ⟨s, hs, by rw [hm]; simp [exMat, TMat.nc], by rw [Space.HasWord, hr]; rfl, 0, by rw [hm]; simp [exMat, TMat.nc], ?_⟩
  rw [hm]; simp [exMat, Mat.of_get]

end
end Dissect
