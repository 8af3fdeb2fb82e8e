import Verif.Model.Space

/-!
# Several spaces alive at the same time

Python passes dictionaries by reference: the constructor keeps the caller's `row2id` object (`space.py:109`,
`peripheral_space.py:61`) and `add_rows` mutates it in place (`peripheral_space.py:109`,
`utils/space_utils.py:18-26`). The world below has a heap of row dictionaries; spaces hold references into it. All
other attributes are either rebound or never mutated in place, so they are plain values.
-/

namespace Dissect
variable {κ : Type} [DecidableEq κ]

/-- A `Space` or `PeripheralSpace` object whose row dictionary is a reference. -/
structure Obj (κ : Type) where
  mat : TMat ℝ
  id2row : List κ
  id2col : List κ
  rowRef : ℕ
  col2id : Dict κ ℤ
  ops : List (Op κ)
  elemShape : List ℕ
  peripheral : Bool

/-- The heap of row dictionaries and the objects created so far (objects are numbered in order of creation). -/
structure World (κ : Type) where
  dicts : List (Dict κ ℤ)
  objs : List (Obj κ)

namespace World

/-- Nothing created yet. -/
def empty : World κ := ⟨[], []⟩

/-- An object with its dictionary looked up. -/
def deref (w : World κ) (o : Obj κ) : Option (Space κ) :=
  (w.dicts[o.rowRef]?).map fun d => ⟨o.mat, o.id2row, o.id2col, d, o.col2id, o.ops, o.elemShape⟩

/-- What the `i`-th object looks like now. -/
def view (w : World κ) (i : ℕ) : Option (Space κ) := (w.objs[i]?).bind w.deref

/-- The `i`-th object's dictionary reference. -/
def rowRef? (w : World κ) (i : ℕ) : Option ℕ := (w.objs[i]?).map Obj.rowRef

/-- Store a new object for a space value, its dictionary already being in the heap at `r`. -/
def pushAt (w : World κ) (s : Space κ) (r : ℕ) (p : Bool) : World κ :=
  ⟨w.dicts, w.objs ++ [⟨s.mat, s.id2row, s.id2col, r, s.col2id, s.ops, s.elemShape, p⟩]⟩

/-- Store a new object for a space value together with a new dictionary object. -/
def pushFresh (w : World κ) (s : Space κ) (p : Bool) : World κ :=
  pushAt ⟨w.dicts ++ [s.row2id], w.objs⟩ s w.dicts.length p

/-- Replace the attributes of object `i` and the contents of its dictionary object. -/
def write (w : World κ) (i : ℕ) (o : Obj κ) (s : Space κ) : World κ :=
  ⟨w.dicts.set o.rowRef s.row2id,
   w.objs.set i ⟨s.mat, s.id2row, s.id2col, o.rowRef, s.col2id, s.ops, s.elemShape, o.peripheral⟩⟩

end World

/-- The `row2id` argument of a constructor: absent, or a dictionary object. -/
inductive RowArg
  | none
  | ref (r : ℕ)

/-- The API calls (`i`, `j` number existing objects). -/
inductive Call (κ : Type)
  /-- the caller builds a dictionary -/
  | newDict (d : Dict κ ℤ)
  /-- `Space(m, id2row, id2col, row2id, column2id, element_shape=..)` -/
  | space (m : TMat ℝ) (id2row id2col : List κ) (rows : RowArg) (cols : Option (Dict κ ℤ)) (shape : Option (List ℕ))
  /-- `PeripheralSpace(core, m, id2row, row2id)` -/
  | periph (core : ℕ) (m : TMat ℝ) (id2row : List κ) (rows : RowArg)
  /-- `i.apply(t)` -/
  | apply (i : ℕ) (t : Trans)
  /-- `Space.vstack(i, j)` -/
  | vstack (i j : ℕ)
  /-- `i.to_dense()` -/
  | toDense (i : ℕ)
  /-- `i.to_sparse()` -/
  | toSparse (i : ℕ)
  /-- `i.set_cooccurrence_matrix(m)` -/
  | setMatrix (i : ℕ) (m : TMat ℝ)
  /-- `i.add_rows(m, id2row)` -/
  | addRows (i : ℕ) (m : TMat ℝ) (id2row : List κ)

namespace World

/-- The dictionary argument as a value; `none` when the reference does not exist. -/
def rowArg (w : World κ) : RowArg → Option (Option (Dict κ ℤ))
  | .none => some Option.none
  | .ref r => (w.dicts[r]?).map some

/-- Store the constructed space: with the caller's dictionary object, or with a new one. -/
def pushArg (w : World κ) (s : Space κ) (p : Bool) : RowArg → World κ
  | .none => w.pushFresh s p
  | .ref r => w.pushAt s r p

noncomputable section

/-- One API call: the world afterwards and the outcome. A call that mentions an object or dictionary that does not
exist cannot be written in a program; it is `AttributeError` here.
`space.py:61-130` (constructor keeps the reference), `space.py:160` (`apply` copies the dictionary),
`space.py:327` (`vstack` copies it), `space.py:348-358, 394-398` (matrix rebound), `peripheral_space.py:24-70`
(reference kept), `peripheral_space.py:90-123` (dictionary mutated in place, also when the call fails). -/
def step (env : Env) (w : World κ) : Call κ → World κ × Py Unit
  | .newDict d => (⟨w.dicts ++ [d], w.objs⟩, .ok ())
  | .space m r c rows cols sh =>
    match w.rowArg rows with
    | none => (w, .error .attributeError)
    | some d => match Space.new m r c d cols [] sh with
      | .error e => (w, .error e)
      | .ok s => (w.pushArg s false rows, .ok ())
  | .periph core m r rows =>
    match w.view core, w.rowArg rows with
    | some cs, some d => match Periph.new cs m r d with
      | .error e => (w, .error e)
      | .ok s => (w.pushArg s true rows, .ok ())
    | _, _ => (w, .error .attributeError)
  | .apply i t =>
    match w.view i with
    | none => (w, .error .attributeError)
    | some s => match s.apply env t with
      | .error e => (w, .error e)
      | .ok s' => (w.pushFresh s' false, .ok ())
  | .vstack i j =>
    match w.view i, w.view j with
    | some s1, some s2 => match s1.vstack s2 with
      | .error e => (w, .error e)
      | .ok s => (w.pushFresh s false, .ok ())
    | _, _ => (w, .error .attributeError)
  | .toDense i =>
    match w.objs[i]?, w.view i with
    | some o, some s => match s.toDense with
      | .error e => (w, .error e)
      | .ok s' => (w.write i o s', .ok ())
    | _, _ => (w, .error .attributeError)
  | .toSparse i =>
    match w.objs[i]?, w.view i with
    | some o, some s => match s.toSparse with
      | .error e => (w, .error e)
      | .ok s' => (w.write i o s', .ok ())
    | _, _ => (w, .error .attributeError)
  | .setMatrix i m =>
    match w.objs[i]?, w.view i with
    | some o, some s => match s.setMatrix m with
      | .error e => (w, .error e)
      | .ok s' => (w.write i o s', .ok ())
    | _, _ => (w, .error .attributeError)
  | .addRows i m ws =>
    match w.objs[i]?, w.view i with
    | some o, some s =>
      if o.peripheral then
        match Periph.addRows s m ws with
        | (s', out) => (w.write i o s', out)
      else (w, .error .attributeError)
    | _, _ => (w, .error .attributeError)

/-- The world after a sequence of calls, whatever their outcomes. -/
def run (env : Env) (w : World κ) : List (Call κ) → World κ
  | [] => w
  | c :: cs => (w.step env c).1.run env cs

end
end World
end Dissect
