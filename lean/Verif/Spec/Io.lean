import Verif.Model.Text
import Mathlib.Data.Real.Archimedean
import Mathlib.Algebra.Order.Group.Abs

/-!
# Specification: what a data file means

Only Python's own text notions (`fileLines`: the lines of a file, `split`: the whitespace separated fields of a line)
are used here.
-/

namespace Dissect

/-- A label that survives a text file: not empty, no whitespace. -/
def IsWord (w : Str) : Prop := w ≠ [] ∧ ∀ c ∈ w, isWs c = false

/-- What is assumed about Python's number formatting on a set `F` of numbers (the finite doubles): numerals contain no
whitespace, `float(repr(x)) == x`, and `"%f" % x` is a numeral for `x` rounded to six decimals, so that reading it gives
a number at distance at most `10^-6` (at most half a unit in the sixth decimal for the numeral, and the nearest double
to a numeral is not further from it than `x` is). -/
structure NumIO.Laws (io : NumIO) (F : Set ℝ) : Prop where
  repr_word : ∀ x ∈ F, IsWord (io.repr x)
  repr_parse : ∀ x ∈ F, io.parse (io.repr x) = some x
  fmtF_word : ∀ x ∈ F, IsWord (io.fmtF x)
  fmtF_parse : ∀ x ∈ F, ∃ y, io.parse (io.fmtF x) = some y ∧ |y - x| ≤ 1 / 1000000
  fmtF_small : ∀ x ∈ F, |x| < 1 / 2000000 → io.parse (io.fmtF x) = some 0

/-- `l` lists the distinct elements of `toks`, ordered by their first occurrence. -/
structure FirstOcc {α : Type} [BEq α] (toks l : List α) : Prop where
  nodup : l.Nodup
  mem : ∀ w, w ∈ l ↔ w ∈ toks
  order : l.Pairwise (fun a b => toks.idxOf a < toks.idxOf b)

/-- The dictionary maps every element of the list to its position, and nothing else. -/
def IndexOf {α : Type} [DecidableEq α] (l : List α) (d : Dict α ℤ) : Prop :=
  ∀ w v, d.get? w = some v ↔ ∃ i : ℕ, v = (i : ℤ) ∧ l[i]? = some w

/-- The records of a file: the fields of its non-blank lines. -/
def records (content : Str) : List (List Str) := ((fileLines content).map split).filter (fun t => decide (t ≠ []))

/-- The records that have every requested field. -/
def validRecords (content : Str) (fields : List ℕ) : List (List Str) :=
  (records content).filter (fun t => decide (∀ f ∈ fields, f < t.length))

/-- The strings in field `f` of the valid records. -/
def columnOf (content : Str) (fields : List ℕ) (f : ℕ) : List Str :=
  (validRecords content fields).filterMap (fun t => t[f]?)

/-- What one record of an `sm` file contributes to the cell of row string `w1` and column string `w2`. -/
noncomputable def recordCount (io : NumIO) (w1 w2 : Str) : List Str → ℝ
  | a :: b :: x :: _ => if a = w1 ∧ b = w2 then (io.parse x).getD 0 else 0
  | _ => 0

/-- The sum of the counts of all records for `(w1, w2)`. -/
noncomputable def cellSum (io : NumIO) (content : Str) (w1 w2 : Str) : ℝ :=
  ((records content).map (recordCount io w1 w2)).sum

/-- A record that an `sm` reader must accept: three fields, and a numeral if both strings are known. -/
def GoodSm (io : NumIO) (rows cols : List Str) (t : List Str) : Prop :=
  ∃ a b x rest, t = a :: b :: x :: rest ∧ (a ∈ rows → b ∈ cols → io.parse x ≠ none)

/-- The record that determines the row of `w` in a `dm` file: the first one starting with `w`. -/
def firstRecord (content : Str) (w : Str) : Option (List Str) :=
  (records content).find? (fun t => decide (t.head? = some w))

/-- The value of column `j` in the row of `w` according to a `dm` file. -/
noncomputable def dmValue (io : NumIO) (content : Str) (w : Str) (j : ℕ) : ℝ :=
  match firstRecord content w with
  | none => 0
  | some t => match t[j + 1]? with
    | none => 0
    | some x => (io.parse x).getD 0

end Dissect
