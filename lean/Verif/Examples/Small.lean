import Verif.Examples.Objects
import Verif.Props.Stack
import Verif.Props.Reshape
import Verif.Props.Scoring
import Verif.Props.Reading
import Verif.Props.CrossVal
import Verif.Props.Partitions
import Verif.Props.Index
import Verif.Props.Regression
import Verif.Props.PeriphBatch

/-! # The theorems on indexing, stacking, reshaping, scores, folds and word lists applied to concrete values -/

namespace Dissect
noncomputable section
namespace Examples

/-! ## C32, C33 -/

example : ∃ d, exCsr.toCoo.reshape 1 9 = .ok d ∧ d.InShape ∧ RowMajorReshape exCsr.toMat d.toMat 1 9 :=
  C32_sparse_reshape_row_major exCsr exCsr_wf 1 9 rfl
example : exCsr.toCoo.reshape 2 4 = .error .valueError := C32_sparse_reshape_wrong_size exCsr 2 4 (by decide)
example (d e : Coo ℤ) (h1 : exCsr.toCoo.reshape 9 1 = .ok d) (h2 : d.reshape 3 3 = .ok e) : e.toMat = exCsr.toMat :=
  C32_sparse_reshape_round_trip exCsr exCsr_wf 9 1 d e h1 h2
example := C32_sparse_reshape_eq_dense exCsr exCsr_wf 9 1
example := C33_words_exact 32 300 400 1 120000 299 399 (by decide) (by decide) (by decide) (by decide) (by decide)
/-- a matrix with 2^32 cells -/
example := C33_sparse_reshape_no_overflow 65536 65536 32768 131072 65535 65535 (by decide) (by decide) (by decide) (by decide)
  (by decide)

/-! ## C47, C64 -/

example : ∃ keys ranges, getPartitions ["a", "a", "b"] 2 = .ok (keys, ranges) ∧ ((0, 2) ∈ ranges) := by
  obtain ⟨keys, ranges, h, g, _⟩ := C47_maximal_runs ["a", "a", "b"] 2 (by decide)
  have e : getPartitions ["a", "a", "b"] 2 = .ok (["a"], [(0, 2)]) := by decide
  rw [e] at h
  cases h
  exact ⟨_, _, e, by simp⟩

example := C64_balanced_partition (shuffle := List.reverse) List.reverse_perm (n := 7) (fold := 3) (by decide) (by decide)
example : getSplitIndices List.reverse 5 0 = .error .valueError := C64_errors _ 5 0 (.inl (by decide))
example := C64_submatrices (shuffle := List.reverse) List.reverse_perm (m := exMat .sparse) (fold := 2)
  (folds := [[1], [0]]) (show getSplitIndices List.reverse ((2 : ℕ) : ℤ) 2 = .ok [[1], [0]] by decide) (show 0 < 3 by decide)

/-! ## C65, C66 -/

theorem gold_ok : ∀ g ∈ [0, 1, 1, (0 : ℝ)], g = 0 ∨ g = 1 := by simp

theorem pos_ne : posScores [0, 1, 1, 0] [1, 3, 2, 4] ≠ [] := by simp [posScores]

theorem neg_ne : negScores [0, 1, 1, 0] [1, 3, 2, 4] ≠ [] := by simp [negScores]

example := C65_value_partial (gold := [0, 1, 1, 0]) (pred := [1, 3, 2, 4]) rfl gold_ok pos_ne neg_ne
example := C65_no_ties_partial (gold := [0, 1, 1, 0]) (pred := [1, 3, 2, 4]) rfl gold_ok pos_ne neg_ne (by
  intro a ha b hb
  simp only [posScores, negScores] at ha hb
  norm_num at ha hb
  rcases ha with rfl | rfl <;> rcases hb with rfl | rfl <;> norm_num)
example : auc [1, 1] [3, 4] = .ok 0 := (C65_one_class (gold := [1, 1]) (pred := [3, 4]) rfl (by simp)).1 (by simp [negScores])
example : auc [0, 0] [3, 4] = .ok 1 :=
  (C65_one_class (gold := [0, 0]) (pred := [3, 4]) rfl (by simp)).2 (by simp [negScores]) (by simp [posScores])
example := C65_range (gold := [0, 1, 1, 0]) (pred := [1, 3, 2, 4]) rfl gold_ok
example : auc [0, 1] [5, 7] = auc [1, 0] [7, 5] := C65_order_invariant rfl rfl (List.Perm.swap _ _ [])
example : auc [0, 1, 1, 0] ([1, 3, 2, 4].map fun x => x + 1) = auc [0, 1, 1, 0] [1, 3, 2, 4] :=
  C65_monotone_invariant (f := fun x => x + 1) (gold := [0, 1, 1, 0]) (pred := [1, 3, 2, 4]) (by simp) gold_ok
    (fun a b h => by simpa using h)
example : auc [0, 2] [1, 2] = .error .valueError := C65_invalid_gold rfl ⟨2, by simp, by norm_num, by norm_num⟩
example (lib : StatsLib) : score lib [0, 1] [1] "auc".toList = .error .valueError := C66_length_mismatch lib (by simp) _
example (lib : StatsLib) : score lib [0, 1] [5, 5] "auc".toList = auc [0, 1] [5, 5] := (C66_dispatch lib (gold := [0, 1]) (pred := [5, 5]) (by simp)).2.2.1

/-! ## C75 -/

example : readTupleList cs!"a b c\n\n x  y\tz w\n" [2, 0] = .ok [[cs!"c", cs!"a"], [cs!"z", cs!"x"]] :=
  (C75_tuples (fields := [2, 0]) (by simp)).2 (by
    show List.Forall₂ _ [[cs!"a", cs!"b", cs!"c"], [cs!"x", cs!"y", cs!"z", cs!"w"]] _
    exact .cons (.cons rfl (.cons rfl .nil)) (.cons (.cons rfl (.cons rfl .nil)) .nil))
example : readTupleList cs!"a b c\n\n x  y\n" [2, 0] = .error .indexError :=
  (C75_tuples_error (fields := [2, 0]) (by simp)).1 ⟨[cs!"x", cs!"y"], by decide, 2, by simp, by decide⟩

/-! ## C107, C129 -/

example := C107_nary_vstack .dense (exMat .dense) [exMat .dense, exMat .dense] rfl (by simp [exMat]) (show 0 < 2 by decide)
  (show 0 < 3 by decide)
example := C107_nary_hstack .dense (exMat .dense) [exMat .dense, exMat .dense] rfl (by simp [exMat]) (show 0 < 2 by decide)
  (show 0 < 3 by decide)

example : ∃ r, exIdx.getRows [-1, 0, -1] = .ok r ∧ r.ty = exIdx.ty ∧ r.nr = 3 ∧ r.nc = 3 ∧
    ∀ p i, [-1, 0, -1][p]? = some i → ∀ j, r.val.get p j = exIdx.val.get (place 2 i) j :=
  (C129_rows exIdx (show 0 < 3 by decide) [-1, 0, -1] (by simp)).1 (by
    show ∀ i ∈ [-1, 0, -1], ValidIdx 2 i
    simp [ValidIdx])
example : exIdx.getRows [0, 2] = .error .indexError :=
  (C129_rows exIdx (show 0 < 3 by decide) [0, 2] (by simp)).2 ⟨2, by simp, by
    show ¬ ValidIdx 2 2
    simp [ValidIdx]⟩
example : exIdx.getCols [0, 3] = .error .indexError :=
  (C129_cols exIdx (show 0 < 2 by decide) [0, 3] (by simp)).2 ⟨3, by simp, by show 3 ≤ 3; decide⟩

/-- rows of rows, and rows against columns -/
example : ∃ r b, exIdx.getRows [1, 0, -1] = .ok r ∧ exIdx.getCols [2, 1] = .ok b ∧
    r.getRows [-2] = exIdx.getRows [0] ∧ r.getCols [2, 1] = b.getRows [1, 0, -1] := by
  obtain ⟨r, h, _⟩ := (C129_rows exIdx (show 0 < 3 by decide) [1, 0, -1] (by simp)).1 (by
    show ∀ i ∈ [1, 0, -1], ValidIdx 2 i
    simp [ValidIdx])
  obtain ⟨b, g, _⟩ := (C129_cols exIdx (show 0 < 2 by decide) [2, 1] (by simp)).1 (by
    show ∀ c ∈ [2, 1], c < 3
    decide)
  exact ⟨r, b, h, g, C129_rows_rows exIdx r (show 0 < 3 by decide) [1, 0, -1] [-2] (by simp) (by simp) h (by simp [ValidIdx]),
    C129_rows_cols exIdx r b (show 0 < 3 by decide) (show 0 < 2 by decide) [1, 0, -1] [2, 1] (by simp) (by simp) h g⟩

/-! ## C54, C25 -/

example : Learner.newRidge ⟨["parm"], none, none, none, none⟩ = .error .invalidArgumentError :=
  C54_unknown_keyword _ ⟨"parm", by simp, by decide⟩
example := C25_stackRows_last (κ := String) (exMat .dense) [(exMat .dense, ["x", "y"])] (exMat .dense, ["z", "w"])
  (by simp [exMat]) rfl

end Examples
end
end Dissect
