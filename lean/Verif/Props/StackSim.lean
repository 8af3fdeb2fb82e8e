import Verif.Props.Invariance
import Verif.Props.Similarity

/-! # C117: similarities in a stacked space are those of the parts -/

namespace Dissect
open Finset
noncomputable section
variable {κ : Type} [DecidableEq κ]

/-- **C117** after `Space.vstack(s1, s2)` the similarity of any two words is what `get_sim` computes from the space(s) they
come from (with the second space given as `space2`). -/
theorem C117_stacked_sim (s1 s2 s : Space κ) (h1 : s1.WF) (h2 : s2.WF) (h : Space.vstack s1 s2 = .ok s)
    (hne : 0 < s1.mat.nc) (a b : Space κ) (ha : a = s1 ∨ a = s2) (hb : b = s1 ∨ b = s2) (w1 w2 : κ)
    (m1 : w1 ∈ a.id2row) (m2 : w2 ∈ b.id2row) (sim : Sim) :
    s.getSim w1 w2 sim none = a.getSim w1 w2 sim (some b) := by
  obtain ⟨wf, rows, _, _, hnc, g1, g2⟩ := C04_words_keep_vectors s1 s2 s h1 h2 h
  have hcc : s1.mat.nc = s2.mat.nc := by
    unfold Space.vstack at h
    split at h
    · cases h
    · rename_i hc; push Not at hc; exact hc
  have key : ∀ c : Space κ, c = s1 ∨ c = s2 → c.WF ∧ c.mat.nc = s.mat.nc ∧ ∀ w ∈ c.id2row,
      ∃ i i', c.HasWord i w ∧ s.HasWord i' w ∧ ∀ j, s.mat.val.get i' j = c.mat.val.get i j := by
    rintro c (rfl | rfl)
    · refine ⟨h1, hnc.symm, fun w hw => ?_⟩
      obtain ⟨i, hi⟩ := List.mem_iff_getElem?.1 hw
      obtain ⟨i', hi', hg⟩ := g1 i w hi
      exact ⟨i, i', hi, hi', hg⟩
    · refine ⟨h2, (hnc.trans hcc).symm, fun w hw => ?_⟩
      obtain ⟨i, hi⟩ := List.mem_iff_getElem?.1 hw
      obtain ⟨i', hi', hg⟩ := g2 i w hi
      exact ⟨i, i', hi, hi', hg⟩
  obtain ⟨wa, na, ka⟩ := key a ha
  obtain ⟨wb, nb, kb⟩ := key b hb
  obtain ⟨i, i', p1, p2, p3⟩ := ka w1 m1
  obtain ⟨j, j', q1, q2, q3⟩ := kb w2 m2
  rw [Space.getSim_words2 (s := s) (target := s) (space2 := none) rfl wf wf (by omega) rfl p2 q2,
    Space.getSim_words2 (s := a) (target := b) (space2 := some b) rfl wa wb (by omega) (by omega) p1 q1, na]
  congr 1
  exact simVal_congr (fun k _ => p3 k) (fun k _ => q3 k)

/-- **C117** in particular two words of the same part have the similarity they had in that part. -/
theorem C117_same_part (s1 s2 s : Space κ) (h1 : s1.WF) (h2 : s2.WF) (h : Space.vstack s1 s2 = .ok s)
    (hne : 0 < s1.mat.nc) (a : Space κ) (ha : a = s1 ∨ a = s2) (w1 w2 : κ)
    (m1 : w1 ∈ a.id2row) (m2 : w2 ∈ a.id2row) (sim : Sim) :
    s.getSim w1 w2 sim none = a.getSim w1 w2 sim none := by
  rw [C117_stacked_sim s1 s2 s h1 h2 h hne a a ha ha w1 w2 m1 m2 sim]
  rfl

/-- **C04** a space created without a row dictionary of the caller's own meets the hypothesis of `C04_accepts_iff`. -/
theorem C04_plain_rows (m : TMat ℝ) (rows cols : List κ) (c : Option (Dict κ ℤ)) (ops : List (Op κ))
    (sh : Option (List ℕ)) (s : Space κ) (h : Space.new m rows cols none c ops sh = .ok s) : s.PlainRows := by
  obtain ⟨_, _, _, _, _, hr, _, wf⟩ := Space.new_eq_ok h
  obtain ⟨hl, _, hi⟩ := list2dict_ok (show list2dict rows = .ok s.row2id from hr)
  intro w v hv
  obtain ⟨i, hi'⟩ := List.mem_iff_getElem?.1 ((hl.keys w).2 ⟨v, hv⟩)
  rw [hi i w hi'] at hv
  injection hv with hv
  omega

/-- non-vacuity of C04 and C117: a dense and a sparse space with different words and the same columns are stacked. -/
example : ∃ s1 s2 s : Space String, s1.WF ∧ s2.WF ∧ Space.vstack s1 s2 = .ok s ∧ 0 < s1.mat.nc ∧
    "dog" ∈ s1.id2row ∧ "red" ∈ s2.id2row := by
  obtain ⟨s1, n1⟩ := (C01_accepts_iff (exMat .dense) ["dog", "cat"] ["a", "b", "c"] none none [] none).2
    ⟨by simp, by simp, by simp, by simp, rfl, fun _ => rfl, by simp⟩
  obtain ⟨s2, n2⟩ := (C01_accepts_iff (exMat .sparse) ["red", "big"] ["a", "b", "c"] none none [] none).2
    ⟨by simp, by simp, by simp, by simp, rfl, fun _ => rfl, by simp⟩
  obtain ⟨w1, a1, a2, a3, _⟩ := C01_result _ _ _ _ _ _ _ s1 n1
  obtain ⟨w2, b1, b2, b3, _⟩ := C01_result _ _ _ _ _ _ _ s2 n2
  obtain ⟨s, hs⟩ := (C04_accepts_iff s1 s2 w1 w2 (C04_plain_rows _ _ _ _ _ _ _ n1)
    (by rw [a1]; exact ⟨Nat.succ_pos _, Nat.succ_pos _⟩)
    (by rw [b1]; exact ⟨Nat.succ_pos _, Nat.succ_pos _⟩)).2 ⟨by rw [a1, b1]; rfl, by rw [a3, b3], by
      rw [a2, b2]; simp⟩
  exact ⟨s1, s2, s, w1, w2, hs, by rw [a1]; exact Nat.succ_pos _, by rw [a2]; simp, by rw [b2]; simp⟩

end
end Dissect
