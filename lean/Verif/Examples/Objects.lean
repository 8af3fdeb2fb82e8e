import Verif.Props.StackSim

/-! # Concrete spaces used by the examples in this directory -/

namespace Dissect
noncomputable section
namespace Examples

/-- Counts of two words in three contexts: `dog` = (0, 2, 4), `cat` = (1, 3, 5). -/
def animals (ty : MTy) : Space String where
  mat := exMat ty
  id2row := ["dog", "cat"]
  id2col := ["a", "b", "c"]
  row2id := ⟨[("dog", 0), ("cat", 1)], by simp⟩
  col2id := ⟨[("a", 0), ("b", 1), ("c", 2)], by simp⟩
  ops := []
  elemShape := [3]

/-- Two adjectives in the same contexts: `red` = (0, 1, 1), `big` = (1, 0, 1). -/
def adjectives (ty : MTy) : Space String where
  mat := ⟨ty, Mat.of 2 3 (fun i j => if i = j then 0 else 1)⟩
  id2row := ["red", "big"]
  id2col := ["a", "b", "c"]
  row2id := ⟨[("red", 0), ("big", 1)], by simp⟩
  col2id := ⟨[("a", 0), ("b", 1), ("c", 2)], by simp⟩
  ops := []
  elemShape := [3]

theorem animals_new (ty : MTy) :
    Space.new (exMat ty) ["dog", "cat"] ["a", "b", "c"] none none [] none = .ok (animals ty) := rfl

theorem adjectives_new (ty : MTy) :
    Space.new (adjectives ty).mat ["red", "big"] ["a", "b", "c"] none none [] none = .ok (adjectives ty) := rfl

theorem animals_wf (ty : MTy) : (animals ty).WF := (C01_result _ _ _ _ _ _ _ _ (animals_new ty)).1

theorem adjectives_wf (ty : MTy) : (adjectives ty).WF := (C01_result _ _ _ _ _ _ _ _ (adjectives_new ty)).1

theorem animals_plain (ty : MTy) : (animals ty).PlainRows := C04_plain_rows _ _ _ _ _ _ _ (animals_new ty)

theorem animals_nonneg (ty : MTy) : NonNegative (animals ty).mat.val := by
  intro i j _ _
  show 0 ≤ (exMat ty).val.get i j
  simp only [exMat, Mat.of_get]
  split <;> positivity

end Examples
end
end Dissect
