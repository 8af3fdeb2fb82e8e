import Verif.Model.Py
import Verif.Model.Matrix

/-! # `utils/space_utils.py` and `utils/gen_utils.py` -/

namespace Dissect
variable {κ : Type} [DecidableEq κ]

/-- The loop of `list2dict` (`utils/space_utils.py:11-14`): `idx` counts the words seen so far. -/
def list2dictAux (d : Dict κ ℤ) (idx : ℕ) : List κ → Py (Dict κ ℤ)
  | [] => .ok d
  | w :: ws => if d.contains w then .error .valueError else list2dictAux (d.set w (idx : ℤ)) (idx + 1) ws

/-- `list2dict` (`utils/space_utils.py:8-16`). -/
def list2dict (l : List κ) : Py (Dict κ ℤ) := list2dictAux Dict.empty 0 l

/-- The loop of `add_items_to_dict` (`utils/space_utils.py:21-25`). The dictionary is updated in place, so the
dictionary reached when the exception is raised is part of the result. -/
def addItemsAux (noEls : ℕ) (d : Dict κ ℤ) (idx : ℕ) : List κ → Dict κ ℤ × Py Unit
  | [] => (d, .ok ())
  | w :: ws =>
    if d.contains w then (d, .error .valueError)
    else addItemsAux noEls (d.set w ((noEls + idx : ℕ) : ℤ)) (idx + 1) ws

/-- `add_items_to_dict` (`utils/space_utils.py:18-26`): final state of the dictionary object and outcome. -/
def addItemsToDict (d : Dict κ ℤ) (l : List κ) : Dict κ ℤ × Py Unit := addItemsAux d.len d 0 l

/-- The loop of `assert_dict_match_list` (`utils/space_utils.py:34-36`). -/
def matchLoop (l : List κ) : List (κ × ℤ) → Py Unit
  | [] => .ok ()
  | (k, v) :: es => match pyGet l v with
    | .error e => .error e
    | .ok x => if x = k then matchLoop l es else .error .valueError

/-- `assert_dict_match_list` (`utils/space_utils.py:28-36`). -/
def assertDictMatchList (d : Dict κ ℤ) (l : List κ) : Py Unit :=
  if l.length ≠ d.len then .error .valueError else matchLoop l d.entries

/-- `assert_shape_consistent` (`utils/space_utils.py:39-53`). Only the lengths of the four label structures matter, so
they are passed as numbers, in the order of the Python parameters. -/
def assertShapeConsistent (noRows noCols lenId2row lenId2col lenRow2id lenCol2id : ℕ) : Py Unit :=
  if noRows ≠ lenId2row ∨ noRows ≠ lenRow2id then .error .valueError
  else if (lenCol2id ≠ 0 ∨ lenId2col ≠ 0) ∧ (noCols ≠ lenId2col ∨ noCols ≠ lenCol2id) then .error .valueError
  else .ok ()

/-- `assert_valid_kwargs` (`utils/gen_utils.py:13-17`). -/
def assertValidKwargs {α : Type} [DecidableEq α] (keys valid : List α) : Py Unit :=
  if keys.all (fun k => decide (k ∈ valid)) then .ok () else .error .invalidArgumentError

/-- The loop of `get_partitions` (`utils/gen_utils.py:22-29`): `prev` is the start of the current run, `last` the
previous element, `i` the current index. Returns the ranges found so far and the start of the last run. -/
def partLoop (minSamples : ℤ) (prev i : ℕ) (last : κ) (acc : List (ℕ × ℕ)) : List κ → List (ℕ × ℕ) × ℕ
  | [] => (acc, prev)
  | x :: xs =>
    if x ≠ last then
      partLoop minSamples i (i + 1) x
        (if minSamples ≤ (i : ℤ) - (prev : ℤ) then acc ++ [(prev, i)] else acc) xs
    else partLoop minSamples prev (i + 1) x acc xs

/-- `get_partitions` (`utils/gen_utils.py:20-36`): the keys and the half-open ranges.
`IndexError` for `sorted_list[start]` happens on an empty list with `min_samples <= 0`. -/
def getPartitions (l : List κ) (minSamples : ℤ) : Py (List κ × List (ℕ × ℕ)) :=
  let (acc, prev) := match l with
    | [] => (([] : List (ℕ × ℕ)), 0)
    | x :: xs => partLoop minSamples 0 1 x [] xs
  let ranges := if minSamples ≤ (l.length : ℤ) - (prev : ℤ) then acc ++ [(prev, l.length)] else acc
  match ranges.mapM (fun r => l[r.1]?) with
  | some keys => .ok (keys, ranges)
  | none => .error .indexError

end Dissect
