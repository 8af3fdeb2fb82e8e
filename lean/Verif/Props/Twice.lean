import Verif.Props.SpaceApply

/-! # C122: normalising twice; selecting in two steps -/

namespace Dissect
open Finset
noncomputable section
variable {κ : Type} [DecidableEq κ]

/-- **C122** the second normalisation by the same criterion changes nothing. -/
theorem C122_normalization_twice (c : Crit) (m r r' : TMat ℝ) (hr : 0 < m.nr) (hc : 0 < m.nc)
    (h1 : normalization c m none = .ok r) (h2 : normalization c r none = .ok r') : r' = r := by
  obtain ⟨r0, e1, e2, e3, e4, e5, e6⟩ := C19_normalization c m hr hc
  rw [h1] at e1
  obtain rfl := ok_inj e1
  obtain ⟨r1, f1, f2, f3, f4, f5, f6⟩ := C19_normalization c r (by rw [e3]; exact hr) (by rw [e4]; exact hc)
  rw [h2] at f1
  obtain rfl := ok_inj f1
  by_cases h0 : matQuantity c m.val = 0
  · exact f6 (by rw [e6 h0]; exact h0)
  · have hq := (e5 h0).1
    refine TMat.ext' f2 (Mat.ext' f3 f4 (fun i j _ _ => ?_))
    rw [(f5 (by rw [hq]; exact one_ne_zero)).2 i j, hq, div_one]

/-- The best columns are determined by the matrix, the criterion and their number. -/
theorem BestColumns.unique {c : Crit} {A : Mat ℝ} {k : ℕ} {p q : List ℕ} (hp : BestColumns c A k p)
    (hq : BestColumns c A k q) : p = q := by
  have hlen : p.length = q.length := hp.count.trans hq.count.symm
  have sub : ∀ x ∈ p, x ∈ q := by
    intro x hx
    by_contra hn
    obtain ⟨y, hy, hyn⟩ : ∃ y ∈ q, y ∉ p := by
      by_contra hall
      push Not at hall
      exact hn (((List.subperm_of_subset hq.distinct (fun y hy => hall y hy)).perm_of_length_le hlen.le).symm.subset hx)
    have b1 := hp.best x hx y (hq.inRange y hy) hyn
    have b2 := hq.best y hy x (hp.inRange x hx) hn
    rcases b1 with b1 | ⟨b1, b1'⟩ <;> rcases b2 with b2 | ⟨b2, b2'⟩
    · linarith
    · linarith
    · linarith
    · omega
  have hperm : p.Perm q := (List.subperm_of_subset hp.distinct sub).perm_of_length_le hlen.ge
  refine hperm.eq_of_pairwise (fun a b _ _ h1 h2 => ?_) hp.sorted hq.sorted
  rcases h1 with h1 | ⟨h1, h1'⟩ <;> rcases h2 with h2 | ⟨h2, h2'⟩
  · linarith
  · linarith
  · linarith
  · omega

theorem BestColumns.take {c : Crit} {A : Mat ℝ} {k j : ℕ} {p : List ℕ} (h : BestColumns c A k p) :
    BestColumns c A (min j k) (p.take j) := by
  refine ⟨by rw [List.length_take, h.count]; omega, h.distinct.sublist (List.take_sublist ..),
    fun x hx => h.inRange x (List.mem_of_mem_take hx), h.sorted.sublist (List.take_sublist ..), fun x hx y hy hn => ?_⟩
  by_cases hyp : y ∈ p
  · have hyd : y ∈ p.drop j := by
      rw [← List.take_append_drop j p] at hyp
      exact (List.mem_append.1 hyp).resolve_left hn
    have ho := h.sorted
    rw [← List.take_append_drop j p, List.pairwise_append] at ho
    exact ho.2.2 x hx y hyd
  · exact h.best x (List.mem_of_mem_take hx) y hy hyp

theorem colQuantity_selCols {c : Crit} {A : Mat ℝ} {p : List ℕ} {t x : ℕ} (h : p[t]? = some x) :
    colQuantity c (A.selCols p) t = colQuantity c A x := by
  cases c <;> simp only [colQuantity, Mat.selCols_nr, Mat.selCols_get_some h]

/-- Among columns already ordered by their score the best ones are the first ones. -/
theorem BestColumns.range {c : Crit} {A : Mat ℝ} {k j : ℕ} {p : List ℕ} (h : BestColumns c A k p) :
    BestColumns c (A.selCols p) j (List.range (min j p.length)) := by
  have key : ∀ a b, a < b → b < p.length → colQuantity c (A.selCols p) b < colQuantity c (A.selCols p) a ∨
      (colQuantity c (A.selCols p) b = colQuantity c (A.selCols p) a ∧ a < b) := by
    intro a b hab hb
    have ga : p[a]? = some p[a] := List.getElem?_eq_getElem (by omega)
    have gb : p[b]? = some p[b] := List.getElem?_eq_getElem hb
    rw [colQuantity_selCols ga, colQuantity_selCols gb]
    rcases List.pairwise_iff_getElem.1 h.sorted a b (by omega) hb hab with h' | ⟨h', _⟩
    · exact Or.inl h'
    · exact Or.inr ⟨h', hab⟩
  refine ⟨by rw [List.length_range]; rfl, List.nodup_range, fun x hx => ?_, ?_, fun x hx y hy hn => ?_⟩
  · rw [List.mem_range] at hx
    show x < p.length
    omega
  · rw [List.pairwise_iff_getElem]
    intro a b ha hb hab
    rw [List.getElem_range, List.getElem_range]
    rw [List.length_range] at hb
    exact key a b hab (by omega)
  · rw [List.mem_range] at hx hn
    exact key x y (by omega) hy

/-- What feature selection does to a space, with the columns chosen. -/
theorem featsel_result {env : Env} {s s' : Space κ} {k : ℕ} {c : Crit} (h : s.apply env (.featsel k c) = .ok s') :
    ∃ sel, BestColumns c s.mat.val k sel ∧ s'.mat = ⟨s.mat.ty, s.mat.val.selCols sel⟩ ∧ s'.id2row = s.id2row ∧
      (s.id2col = [] → s'.id2col = []) ∧
      (s.id2col ≠ [] → List.Forall₂ (fun i x => s.id2col[i]? = some x) sel s'.id2col) := by
  obtain ⟨op, m, hop, op', h1, h2, h3, h4, h5, h6, h7, h8, _⟩ := apply_eq_ok h
  obtain ⟨sel, ht, rfl⟩ := opApply_featsel hop
  obtain ⟨hbest, _, hm⟩ := topFeatureSelection_ok ht
  simp only at h7
  subst h7
  simp only [stepCols] at h8
  refine ⟨sel, hbest, h2.trans hm, h3, ?_⟩
  cases hcol : s.id2col with
  | nil =>
    rw [hcol] at h8
    simp only [Space.selectedColumns] at h8
    have := ok_inj h8
    simp only [Prod.mk.injEq] at this
    exact ⟨fun _ => this.1.symm, fun hne => absurd rfl hne⟩
  | cons o os =>
    rw [hcol] at h8
    simp only [Space.selectedColumns, bind_eq_ok, pure_eq_ok] at h8
    obtain ⟨cols, hp, d, hd, h8⟩ := h8
    have := ok_inj h8
    simp only [Prod.mk.injEq] at this
    refine ⟨fun hne => by simp at hne, fun _ => ?_⟩
    rw [← this.1]
    exact pickLabels_eq_ok hp

theorem forall₂_getElem? {α β : Type} {R : α → β → Prop} {as : List α} {bs : List β} (h : List.Forall₂ R as bs) {t : ℕ} {x : α}
    (hx : as[t]? = some x) : ∃ y, bs[t]? = some y ∧ R x y := by
  induction h generalizing t with
  | nil => simp at hx
  | cons h _ ih =>
    cases t with
    | zero => exact ⟨_, rfl, by simpa using (Option.some.inj hx) ▸ h⟩
    | succ t => exact ih (by simpa using hx)

/-- **C122** selecting the best `k` features and then the best `j` of them is selecting the best `min j k` at once: the same
words, features and numbers. -/
theorem C122_select_in_steps (env : Env) (s s1 s2 s3 : Space κ) (k j : ℕ) (c : Crit)
    (h1 : s.apply env (.featsel k c) = .ok s1) (h2 : s1.apply env (.featsel j c) = .ok s2)
    (h3 : s.apply env (.featsel (min j k) c) = .ok s3) :
    s2.mat = s3.mat ∧ s2.id2row = s3.id2row ∧ s2.id2col = s3.id2col := by
  obtain ⟨p, b1, m1, r1, e1, l1⟩ := featsel_result h1
  obtain ⟨q, b2, m2, r2, e2, l2⟩ := featsel_result h2
  obtain ⟨u, b3, m3, r3, e3, l3⟩ := featsel_result h3
  have hu : u = p.take j := b3.unique b1.take
  have hv1 : s1.mat.val = s.mat.val.selCols p := by rw [m1]
  rw [hv1] at b2
  have hq : q = List.range (min j p.length) := b2.unique b1.range
  subst hu hq
  refine ⟨?_, by rw [r2, r1, r3], ?_⟩
  · rw [m2, m3, m1]
    refine TMat.ext' rfl (Mat.ext' rfl (by simp) (fun i t _ ht => ?_))
    have ht' : t < min j p.length := by simpa using ht
    have g1 : (List.range (min j p.length))[t]? = some t := by simp [ht']
    have g2 : p[t]? = some p[t] := List.getElem?_eq_getElem (by omega)
    have g3 : (p.take j)[t]? = some p[t] := by rw [List.getElem?_take_of_lt (by omega), g2]
    rw [Mat.selCols_get_some g1, Mat.selCols_get_some g2, Mat.selCols_get_some g3]
  · by_cases hs : s.id2col = []
    · rw [e3 hs, e2 (e1 hs)]
    · have f1 := l1 hs
      have f3 := l3 hs
      by_cases hs1 : s1.id2col = []
      · rw [hs1] at f1
        cases f1
        rw [List.take_nil] at f3
        rw [e2 hs1]
        exact (List.length_eq_zero_iff.1 f3.length_eq.symm).symm
      · have f2 := l2 hs1
        refine List.ext_getElem? (fun t => ?_)
        have hl2 := f2.length_eq
        have hl3 := f3.length_eq
        by_cases ht : t < min j p.length
        · have g1 : (List.range (min j p.length))[t]? = some t := by simp [ht]
          have g2 : p[t]? = some p[t] := List.getElem?_eq_getElem (by omega)
          have g3 : (p.take j)[t]? = some p[t] := by rw [List.getElem?_take_of_lt (by omega), g2]
          obtain ⟨y, y1, y2⟩ := forall₂_getElem? f2 g1
          obtain ⟨z, z1, z2⟩ := forall₂_getElem? f3 g3
          obtain ⟨v, v1, v2⟩ := forall₂_getElem? f1 g2
          rw [y1, z1, ← y2, v1, ← z2, ← v2]
        · rw [List.getElem?_eq_none (by simp at hl2; omega), List.getElem?_eq_none (by simp at hl3; omega)]

/-- non-vacuity: three features, of which two and then one are selected. -/
example (env : Env) : ∃ s s1 s2 s3 : Space String, s.apply env (.featsel 2 .sum) = .ok s1 ∧
    s1.apply env (.featsel 1 .sum) = .ok s2 ∧ s.apply env (.featsel (min 1 2) .sum) = .ok s3 ∧ s.id2col ≠ [] := by
  obtain ⟨s, hs⟩ := (C01_accepts_iff (exMat .sparse) ["dog", "cat"] ["a", "b", "c"] none none [] none).2
    ⟨by simp, by simp, by simp, by simp, rfl, fun _ => rfl, by simp⟩
  obtain ⟨w, a1, a2, a3, _, a5, _⟩ := C01_result _ _ _ _ _ _ _ s hs
  have hr : 0 < s.mat.nr := by rw [a1]; exact Nat.succ_pos _
  have hc : 0 < s.mat.nc := by rw [a1]; exact Nat.succ_pos _
  have he : s.elemShape.length ≤ 1 := by rw [a5]; simp
  obtain ⟨s1, h1⟩ := (C05_apply_total env s w hr hc).2 2 .sum (by omega) he
  obtain ⟨s3, h3⟩ := (C05_apply_total env s w hr hc).2 (min 1 2) .sum (by omega) he
  obtain ⟨b1, b2, _⟩ := C05_featsel_keeps_labels env s s1 2 .sum w h1
  obtain ⟨w1, _, _, q4, _⟩ := C05_apply env s s1 _ h1
  obtain ⟨s2, h2⟩ := (C05_apply_total env s1 w1 (by rw [b1]; exact hr) (by rw [b2]; omega)).2 1 .sum (by omega)
    (by rw [q4]; simp)
  exact ⟨s, s1, s2, s3, h1, h2, h3, by rw [a3]; simp⟩

end
end Dissect
