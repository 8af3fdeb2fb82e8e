import Mathlib.Data.List.Basic
import Mathlib.Data.List.Nodup

/-!
# Python run-time notions used by every model

Exceptions as values, dictionaries, Python list indexing, `sorted(.., reverse=True)`.
-/

namespace Dissect

/-- The Python exception classes that the modelled code can raise.
`composes/exception/*.py` (IllegalStateError, IllegalOperationError, InvalidArgumentError) and builtins.
Simplification: messages are dropped. -/
inductive PyErr
  | valueError | typeError | keyError | indexError | zeroDivisionError | attributeError
  | unboundLocalError | illegalStateError | illegalOperationError | invalidArgumentError
  | notImplementedError | osError | ioError | assertionError | stopIteration
  | systemExit | linAlgError | runtimeError | parsingError
  deriving DecidableEq, Repr

/-- Outcome of a Python call. -/
abbrev Py (α : Type) := Except PyErr α

/-- A Python `dict` (values of type `β`): association list with distinct keys.
The `nodup` field is an inherent invariant of every Python dictionary. -/
structure Dict (κ β : Type) where
  entries : List (κ × β)
  nodup : (entries.map Prod.fst).Nodup

namespace Dict
variable {κ β : Type} [DecidableEq κ]

/-- `{}` -/
def empty : Dict κ β := ⟨[], by simp⟩

/-- `list(d.keys())` -/
def keys (d : Dict κ β) : List κ := d.entries.map Prod.fst

/-- `len(d)` -/
def len (d : Dict κ β) : Nat := d.entries.length

/-- `k in d` -/
def contains (d : Dict κ β) (k : κ) : Bool := decide (k ∈ d.keys)

/-- `d.get(k)`: the value stored under `k`, if any. -/
def get? (d : Dict κ β) (k : κ) : Option β :=
  (d.entries.find? (fun e => decide (e.1 = k))).map Prod.snd

/-- `d[k]`, raising `KeyError`. -/
def getItem (d : Dict κ β) (k : κ) : Py β :=
  match d.get? k with
  | some v => .ok v
  | none => .error .keyError

/-- Overwrite the value of an existing key in an association list. -/
def setEntries (k : κ) (v : β) : List (κ × β) → List (κ × β)
  | [] => [(k, v)]
  | e :: es => if e.1 = k then (k, v) :: es else e :: setEntries k v es

theorem mem_keys_setEntries (k : κ) (v : β) (l : List (κ × β)) (x : κ) :
    x ∈ (setEntries k v l).map Prod.fst ↔ x = k ∨ x ∈ l.map Prod.fst := by
  induction l with
  | nil => simp [setEntries]
  | cons e es ih =>
    unfold setEntries
    split
    · rename_i h
      simp only [List.map_cons, List.mem_cons]
      constructor
      · rintro (h1 | h1)
        · exact Or.inl h1
        · exact Or.inr (Or.inr h1)
      · rintro (h1 | h1 | h1)
        · exact Or.inl h1
        · exact Or.inl (h1.trans h)
        · exact Or.inr h1
    · simp only [List.map_cons, List.mem_cons, ih]
      tauto

theorem nodup_setEntries (k : κ) (v : β) (l : List (κ × β)) (h : (l.map Prod.fst).Nodup) :
    ((setEntries k v l).map Prod.fst).Nodup := by
  induction l with
  | nil => simp [setEntries]
  | cons e es ih =>
    unfold setEntries
    simp only [List.map_cons, List.nodup_cons] at h
    split
    · rename_i hk
      subst hk
      simpa [List.nodup_cons] using h
    · rename_i hk
      rw [List.map_cons, List.nodup_cons]
      refine ⟨?_, ih h.2⟩
      rw [mem_keys_setEntries]
      rintro (h1 | h1)
      · exact hk h1
      · exact h.1 h1

/-- `d[k] = v` -/
def set (d : Dict κ β) (k : κ) (v : β) : Dict κ β :=
  ⟨setEntries k v d.entries, nodup_setEntries k v d.entries d.nodup⟩

end Dict

/-- Python list/array index normalisation: `l[v]` with `len(l) = n` addresses position `v` for
`0 ≤ v < n`, position `n + v` for `-n ≤ v < 0`, and is out of range otherwise. -/
def pyIdx (n : Nat) (v : Int) : Option Nat :=
  if 0 ≤ v ∧ v < n then some v.toNat
  else if v < 0 ∧ -(n : Int) ≤ v then some (v + n).toNat
  else none

/-- `l[v]` for a Python list, raising `IndexError`. -/
def pyGet {α : Type} (l : List α) (v : Int) : Py α :=
  match pyIdx l.length v with
  | none => .error .indexError
  | some i => match l[i]? with
    | some x => .ok x
    | none => .error .indexError

/-- `sorted(range(n), key=norms.__getitem__, reverse=True)` (`matrix/matrix.py:95-123`).
Python's `sorted` is stable and `reverse=True` keeps the original order of equal elements, hence a stable sort for
the relation "`a` before `b` when `key a ≥ key b`". -/
def sortedDesc {K : Type} [LE K] [DecidableLE K] (n : Nat) (key : Nat → K) : List Nat :=
  (List.range n).mergeSort (fun a b => decide (key b ≤ key a))

end Dissect
