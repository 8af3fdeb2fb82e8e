import Verif.Props.Invariance
import Verif.Props.Similarity

/-! # C120: shorter neighbour lists are prefixes of longer ones; C121: similarity is symmetric between two spaces -/

namespace Dissect
open Finset
noncomputable section
variable {κ : Type} [DecidableEq κ]

/-- The first `n` entries of a neighbour list for `m ≥ n` are a neighbour list for `n`. -/
theorem TopNeighbours.take {rows : List κ} {score : κ → ℝ} {n m : ℤ} {res : List (κ × ℝ)} (hnm : n ≤ m)
    (h : TopNeighbours rows score m res) : TopNeighbours rows score n (res.take n.toNat) := by
  have hl := h.length
  have hnd : res.Nodup := List.Nodup.of_map _ h.distinct
  refine ⟨by rw [List.length_take]; omega, fun p hp => h.entries p (List.mem_of_mem_take hp), ?_,
    h.ordered.sublist (List.take_sublist ..), ?_⟩
  · rw [List.map_take]
    exact h.distinct.sublist (List.take_sublist ..)
  · intro p hp x hx hn
    by_cases hm : x ∈ res.map Prod.fst
    · obtain ⟨q, hq, rfl⟩ := List.mem_map.1 hm
      have hqd : q ∈ res.drop n.toNat := by
        rw [← List.take_append_drop n.toNat res] at hq
        rcases List.mem_append.1 hq with hq | hq
        · exact absurd (List.mem_map.2 ⟨q, hq, rfl⟩) hn
        · exact hq
      have ho := h.ordered
      rw [← List.take_append_drop n.toNat res, List.pairwise_append] at ho
      have := ho.2.2 p hp q hqd
      rwa [show q = (q.1, score q.1) from Prod.ext rfl (h.entries q hq).2] at this
    · exact h.best p (List.mem_of_mem_take hp) x hx hm

/-- **C120** asking for fewer neighbours gives the beginning of the longer list. -/
theorem C120_prefix (s target : Space κ) (space2 : Option (Space κ)) (sim : Sim) (w : κ) (n m : ℤ) (hnm : n ≤ m)
    (ht : target = space2.getD s) (h1 : s.WF) (h2 : target.WF) (hc : 0 < s.mat.nc)
    (hcc : s.mat.nc = target.mat.nc) (hw : w ∈ s.id2row) (hr : 0 < target.id2row.length) :
    ∃ res, s.getNeighbours w m sim space2 = .ok res ∧ s.getNeighbours w n sim space2 = .ok (res.take n.toNat) := by
  obtain ⟨rm, sc, e1, e2, e3⟩ := C09_top_n s target space2 sim w m ht h1 h2 hc hcc hw hr
  obtain ⟨rn, sc', f1, f2, f3⟩ := C09_top_n s target space2 sim w n ht h1 h2 hc hcc hw hr
  refine ⟨rm, e1, ?_⟩
  rw [f1]
  congr 1
  refine TopNeighbours.unique (fun x hx => ?_) f3 (e3.take hnm)
  have := (f2 x hx).symm.trans (e2 x hx)
  exact ok_inj this

theorem simVal_symm (sim : Sim) (n : ℕ) (u v : ℕ → ℝ) : simVal sim n u v = simVal sim n v u := by
  cases sim with
  | dot =>
    simp only [simVal, inner]
    exact Finset.sum_congr rfl (fun j _ => mul_comm (u j) (v j))
  | cos =>
    simp only [simVal, inner]
    rw [show (∑ j ∈ range n, u j * v j) = ∑ j ∈ range n, v j * u j from Finset.sum_congr rfl (fun j _ => mul_comm _ _),
      mul_comm (len2 n u)]
    simp only [or_comm]
  | euclid =>
    simp only [simVal]
    congr 2
    unfold len2
    congr 1
    exact Finset.sum_congr rfl (fun j _ => by ring)
  | lin =>
    simp only [simVal]
    simp only [add_comm (∑ j ∈ range n, v j), add_comm (v _), mul_comm (v _)]

/-- **C121** the similarity of `w1` in one space and `w2` in the other does not depend on the space from which it is asked,
for known and unknown words. -/
theorem C121_symmetric (s t : Space κ) (sim : Sim) (w1 w2 : κ) (h1 : s.WF) (h2 : t.WF) (hc : 0 < s.mat.nc)
    (hcc : s.mat.nc = t.mat.nc) : s.getSim w1 w2 sim (some t) = t.getSim w2 w1 sim (some s) := by
  by_cases hk : w1 ∈ s.id2row ∧ w2 ∈ t.id2row
  · obtain ⟨i, hi⟩ := Space.hasWord_of_mem hk.1
    obtain ⟨j, hj⟩ := Space.hasWord_of_mem hk.2
    rw [Space.getSim_words2 (s := s) (target := t) (space2 := some t) rfl h1 h2 hc hcc hi hj,
      Space.getSim_words2 (s := t) (target := s) (space2 := some s) rfl h2 h1 (by omega) hcc.symm hj hi, simVal_symm, hcc]
  · have : w1 ∉ s.id2row ∨ w2 ∉ t.id2row := by tauto
    rw [C08_missing s t (some t) sim w1 w2 rfl h1 h2 hc this,
      C08_missing t s (some s) sim w2 w1 rfl h2 h1 (by omega) this.symm]

/-- **C121** within one space. -/
theorem C121_one_space (s : Space κ) (sim : Sim) (w1 w2 : κ) (h1 : s.WF) (hc : 0 < s.mat.nc) :
    s.getSim w1 w2 sim none = s.getSim w2 w1 sim none := C121_symmetric s s sim w1 w2 h1 h1 hc rfl


/-- non-vacuity of C120 and C121. -/
example : ∃ s : Space String, s.WF ∧ 0 < s.mat.nc ∧ "dog" ∈ s.id2row ∧ 0 < s.id2row.length := by
  obtain ⟨s, h, hm, hr, _⟩ := ex_space .sparse
  exact ⟨s, h, by rw [hm]; simp [exMat, TMat.nc], by rw [hr]; simp, by rw [hr]; simp⟩

end
end Dissect
