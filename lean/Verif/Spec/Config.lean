import Verif.Model.Config
import Verif.Spec.Cli

/-!
# Specification: what a configuration file says

Written from the documentation of configuration files (sections, `name = value` or `name: value`, comments, continuation
lines), not from the reader.
-/

namespace Dissect

/-- One line of a configuration file. -/
inductive CfgLine
  /-- White space only. -/
  | blank (ws : Str)
  /-- `# text` or `; text`. -/
  | comment (mark : Char) (text : Str)
  /-- `rem text`, in large or small letters. -/
  | remark (word : Str) (text : Str)
  /-- `[name]` -/
  | header (name : Str)
  /-- `name = value`, with blanks around the separator and at the end, perhaps followed by `; text`. -/
  | option (name : Str) (b1 : Str) (sep : Char) (b2 : Str) (value : Str) (b3 : Str)
  /-- An indented line. -/
  | more (indent : Str) (text : Str) (b3 : Str)

/-- In small letters. -/
def smallLetters (s : Str) : Str := s.map Char.toLower

/-- Blanks and tabs. -/
def Blanks (s : Str) : Prop := ∀ c ∈ s, c = ' ' ∨ c = '\t'

/-- A text that can be a value: on one line, without white space at the ends, the first semicolon, if any, at the beginning or after
a character that is not white space (otherwise it would begin a comment; the later ones do not matter), and without `%(`, which would be interpolated. -/
structure CleanValue (v : Str) : Prop where
  line : '\n' ∉ v
  first : ∀ c, v.head? = some c → isWs c = false
  last : ∀ c, v.getLast? = some c → isWs c = false
  semicolon : ∀ a b, ';' ∉ a → v = a ++ ';' :: b → a = [] ∨ ∃ c, a.getLast? = some c ∧ isWs c = false
  percent : ∀ a b, v ≠ a ++ '%' :: '(' :: b

/-- A name that can be an option: one word without separators that does not begin like a comment or a header; `rem` begins a
comment. -/
structure CleanName (n : Str) : Prop where
  nonempty : n ≠ []
  word : ∀ c ∈ n, isWs c = false ∧ c ≠ ':' ∧ c ≠ '='
  start : n.head? ≠ some '#' ∧ n.head? ≠ some ';' ∧ n.head? ≠ some '['
  remark : smallLetters n ≠ cs!"rem"

/-- What may follow a value on its line: blanks (nothing if the value begins with a semicolon, which would then begin a
comment), or (after a non-empty value without semicolons) blanks, a semicolon and any
text. -/
def Rest (v b : Str) : Prop :=
  (Blanks b ∧ (v.head? = some ';' → b = [])) ∨ v ≠ [] ∧ ';' ∉ v ∧ ∃ b' t, b = b' ++ ';' :: t ∧ b' ≠ [] ∧ Blanks b' ∧ '\n' ∉ t

/-- The value that is meant: two double quotes are the empty value. -/
def meantValue (v : Str) : Str := if v = cs!"\"\"" then [] else v

namespace CfgLine

/-- The text of a line, without its newline. -/
def text : CfgLine → Str
  | blank ws => ws
  | comment m t => m :: t
  | remark w t => w ++ t
  | header n => '[' :: n ++ [']']
  | option n b1 sep b2 v b3 => n ++ b1 ++ [sep] ++ b2 ++ v ++ b3
  | more i t b3 => i ++ t ++ b3

/-- The line is written as described. -/
def Ok : CfgLine → Prop
  | blank ws => ∀ c ∈ ws, isWs c = true ∧ c ≠ '\n'
  | comment m t => (m = '#' ∨ m = ';') ∧ '\n' ∉ t
  | remark w t => smallLetters w = cs!"rem" ∧ (∀ c, t.head? = some c → isWs c = true) ∧ '\n' ∉ t
  | header n => n ≠ [] ∧ ']' ∉ n ∧ '\n' ∉ n
  | option n b1 sep b2 v b3 => CleanName n ∧ Blanks b1 ∧ (sep = '=' ∨ sep = ':') ∧ Blanks b2 ∧ CleanValue v ∧ Rest v b3
  | more i t b3 => i ≠ [] ∧ Blanks i ∧ t ≠ [] ∧ CleanValue t ∧ Blanks b3

end CfgLine

/-- What the lines up to some point have said: the current section, whether an indented line would continue an option, the
sections, and the values given, in order, as (section, name in small letters, value). -/
structure CfgSaid where
  cur : Option Str
  goesOn : Bool
  sects : List Str
  values : List (Str × Str × Str)

namespace CfgSaid

/-- Nothing. -/
def nothing : CfgSaid := ⟨none, false, [], []⟩

/-- The line makes sense here: options are inside a section, an indented line follows an option (perhaps after blank lines
and comments). -/
def Allows (m : CfgSaid) : CfgLine → Prop
  | .option .. => m.cur ≠ none
  | .more .. => m.goesOn = true
  | _ => True

/-- The line is read. -/
def add (m : CfgSaid) : CfgLine → CfgSaid
  | .blank _ => m
  | .comment _ _ => m
  | .remark _ _ => m
  | .header n => ⟨some n, false, m.sects ++ [n], m.values⟩
  | .option n _ _ _ v _ => { m with goesOn := true, values := m.values ++ [(m.cur.getD [], smallLetters n, meantValue v)] }
  | .more _ t _ => { m with values := m.values.dropLast ++ (m.values.getLast?.map (fun x => (x.1, x.2.1, x.2.2 ++ '\n' :: t))).toList }

/-- All lines are read. -/
def addAll (m : CfgSaid) : List CfgLine → CfgSaid
  | [] => m
  | l :: ls => (m.add l).addAll ls

/-- All lines make sense where they are. -/
def AllowsAll (m : CfgSaid) : List CfgLine → Prop
  | [] => True
  | l :: ls => m.Allows l ∧ (m.add l).AllowsAll ls

/-- The last value given to an option in a section. -/
def last (m : CfgSaid) (s o : Str) : Option Str :=
  ((m.values.filter (fun x => decide (x.1 = s ∧ x.2.1 = smallLetters o))).getLast?).map (fun x => x.2.2)

/-- The value of an option: the last one given in the section, else the last one given in the section `DEFAULT`; nothing if
there is no such section. -/
def value (m : CfgSaid) (s o : Str) : Option Str :=
  if s ∈ m.sects then (m.last s o).or (m.last cs!"DEFAULT" o) else none

end CfgSaid

/-- The text of a file, each line with its newline. -/
def cfgText (ls : List CfgLine) : Str := (ls.map (fun l => l.text ++ ['\n'])).flatten

/-- The file that says in one section what a list of options says on the command line, one `name=value` per line. -/
def cfgOf (sect : Str) (gs : List Given) : List CfgLine :=
  .header sect :: gs.map (fun g => .option g.opt.long [] '=' [] g.value [])

end Dissect
