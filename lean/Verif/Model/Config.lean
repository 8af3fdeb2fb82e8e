import Verif.Model.Cli

/-!
# Python 2.7 `ConfigParser`

The standard-library class every pipeline script reads its configuration file with (`config = ConfigParser()`,
`config.read(config_file)`, `build_core_space.py:250-251` and the same place of the other scripts). Transcribed from
`Lib/ConfigParser.py` of Python 2.7.
-/

namespace Dissect

/-- `s.lower()` (Python builtin, byte strings). -/
def lowerStr (s : Str) : Str := s.map Char.toLower

/-- `s.rstrip()` (Python builtin). -/
def rstrip (s : Str) : Str := (s.reverse.dropWhile isWs).reverse

namespace Cfg

/-- `DEFAULTSECT`. -/
def defaultSect : Str := cs!"DEFAULT"

/-- The lines that `_read` passes over: `line.strip() == ''`, `line[0] in '#;'`, and
`line.split(None, 1)[0].lower() == 'rem' and line[0] in "rR"`. -/
def ignored (line : Str) : Bool :=
  decide (strip line = []) || decide (line.head? = some '#') || decide (line.head? = some ';') ||
    (decide ((split line).head?.map lowerStr = some cs!"rem") &&
      (decide (line.head? = some 'r') || decide (line.head? = some 'R')))

/-- `line[0].isspace()`. -/
def indented (line : Str) : Bool := line.head?.any isWs

/-- `SECTCRE.match(line)`, i.e. `\[(?P<header>[^]]+)\]`: the section name. -/
def sectHeader (line : Str) : Option Str :=
  match line with
  | '[' :: rest =>
    if rest.takeWhile (fun c => decide (c ≠ ']')) ≠ [] ∧ ']' ∈ rest then some (rest.takeWhile (fun c => decide (c ≠ ']')))
    else none
  | _ => none

/-- `OPTCRE.match(line)`, i.e. `(?P<option>[^:=\s][^:=]*)\s*(?P<vi>[:=])\s*(?P<value>.*)$`: the name and the value as
matched. A line has no newline except at its end. -/
def optLine (line : Str) : Option (Str × Str) :=
  if indented line then none else
  match line.takeWhile (fun c => decide (c ≠ ':' ∧ c ≠ '=')), line.dropWhile (fun c => decide (c ≠ ':' ∧ c ≠ '=')) with
  | [], _ => none
  | _, [] => none
  | name, _ :: rest => some (name, (rest.dropWhile isWs).takeWhile (fun c => decide (c ≠ '\n')))

/-- `if vi in ('=', ':') and ';' in optval: pos = optval.find(';'); if pos != -1 and optval[pos-1].isspace(): optval =
optval[:pos]`. For `pos = 0` Python's `optval[-1]` is the last character. -/
def cutComment (v : Str) : Str :=
  if ';' ∈ v then
    match (v.takeWhile (fun c => decide (c ≠ ';'))).getLast? with
    | some c => if isWs c then v.takeWhile (fun c => decide (c ≠ ';')) else v
    | none => if v.getLast?.any isWs then [] else v
  else v

/-- The stored value of an option line: without comment, stripped, and `''` for `""`. -/
def optValue (v : Str) : Str :=
  if strip (cutComment v) = cs!"\"\"" then [] else strip (cutComment v)

/-- The variables of `_read`: `self._sections`, `self._defaults`, `cursect` (by name, `none` is `None`), `optname`, whether
a `ParsingError` has been noted. Values are the lists of lines. Simplification: the entry `__name__` of every section is left
out; no script looks it up. -/
structure Reader where
  sections : Dict Str (Dict Str (List Str))
  defaults : Dict Str (List Str)
  cur : Option Str
  opt : Option Str
  bad : Bool

/-- A new `ConfigParser()`, at the beginning of `_read`. -/
def Reader.init : Reader := ⟨Dict.empty, Dict.empty, none, none, false⟩

/-- The dictionary of a section. -/
def Reader.dictOf (r : Reader) (s : Str) : Dict Str (List Str) :=
  if s = defaultSect then r.defaults else (r.sections.get? s).getD Dict.empty

/-- Assignment to an entry of the dictionary of a section. -/
def Reader.put (r : Reader) (s o : Str) (v : List Str) : Reader :=
  if s = defaultSect then { r with defaults := r.defaults.set o v }
  else { r with sections := r.sections.set s ((r.dictOf s).set o v) }

/-- A section header: an existing section (or `DEFAULT`) is continued, otherwise a new one is begun; `optname = None`. -/
def Reader.enter (r : Reader) (name : Str) : Reader :=
  if r.sections.contains name ∨ name = defaultSect then { r with cur := some name, opt := none }
  else { r with sections := r.sections.set name Dict.empty, cur := some name, opt := none }

/-- One iteration of the loop of `_read`. `MissingSectionHeaderError` is a `ParsingError`. -/
def step (r : Reader) (line : Str) : Py Reader :=
  if ignored line then .ok r else
  match indented line, r.cur, r.opt with
  | true, some s, some o => .ok (r.put s o (((r.dictOf s).get? o).getD [] ++ [strip line]))
  | _, _, _ =>
    match sectHeader line with
    | some name => .ok (r.enter name)
    | none => match r.cur with
      | none => .error .parsingError
      | some s => match optLine line with
        | some (name, v) => .ok { r.put s (lowerStr (rstrip name)) [optValue v] with opt := some (lowerStr (rstrip name)) }
        | none => .ok { r with bad := true }

/-- The loop of `_read`. -/
def readLines (r : Reader) : List Str → Py Reader
  | [] => .ok r
  | l :: ls => do
    let r' ← step r l
    readLines r' ls

/-- `has_option(section, option)` and then `get(section, option)`, for a section other than `DEFAULT`: the section itself,
then the defaults. Simplification: no interpolation, which `get` performs on values that contain `%(`. -/
def Reader.lookup (r : Reader) : Config := fun s o =>
  match r.sections.get? s with
  | none => none
  | some d => ((d.get? (lowerStr o)).or (r.defaults.get? (lowerStr o))).map (joinStr cs!"\n")

/-- `ConfigParser().read(file)` on a file with this content. -/
def parse (txt : Str) : Py Config := do
  let r ← readLines Reader.init (fileLines txt)
  if r.bad then .error .parsingError else .ok r.lookup

end Cfg
end Dissect
