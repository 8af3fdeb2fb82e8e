import Verif.Model.Py
import Mathlib.Data.Real.Basic

/-!
# Python byte strings, text files and the file system

The builtins used by `utils/io_utils.py` and the pipelines: line iteration, `str.strip`, `str.split`, `str.join`,
`os.path`, `os.makedirs`, `open`.
-/

namespace Dissect

/-- A Python 2 `str`. Simplification: characters instead of bytes; only ASCII whitespace is treated as white, exactly
as `str.strip()` / `str.split()` do on byte strings in the C locale. -/
abbrev Str := List Char

/-- `c.isspace()` for a byte: blank, tab, newline, carriage return, vertical tab, form feed. -/
def isWs (c : Char) : Bool :=
  c = ' ' || c = '\t' || c = '\n' || c = '\r' || c = Char.ofNat 11 || c = Char.ofNat 12

/-- `s.strip()` (Python builtin). -/
def strip (s : Str) : Str := (((s.dropWhile isWs).reverse).dropWhile isWs).reverse

/-- `s.split()` (Python builtin): `cur` is the word being read. -/
def splitAux (cur : Str) : Str → List Str
  | [] => if cur = [] then [] else [cur]
  | c :: cs =>
    if isWs c then
      if cur = [] then splitAux [] cs else cur :: splitAux [] cs
    else splitAux (cur ++ [c]) cs

/-- `s.split()` (Python builtin). -/
def split (s : Str) : List Str := splitAux [] s

/-- `for line in f` (Python builtin): the lines, each with its newline; `cur` is the line being read. -/
def linesAux (cur : Str) : Str → List Str
  | [] => if cur = [] then [] else [cur]
  | c :: cs => if c = '\n' then (cur ++ [c]) :: linesAux [] cs else linesAux (cur ++ [c]) cs

/-- `for line in f` (Python builtin) on a file with this content. -/
def fileLines (content : Str) : List Str := linesAux [] content

/-- `sep.join(l)` (Python builtin). -/
def joinStr (sep : Str) : List Str → Str
  | [] => []
  | [x] => x
  | x :: y :: ys => x ++ sep ++ joinStr sep (y :: ys)

/-- Conversions between numbers and text provided by Python and numpy: `repr(x)` and `"%f" % x` of a float, and
`np.double(s)`, which raises `ValueError` (`none`) on a malformed numeral. -/
structure NumIO where
  repr : ℝ → Str
  fmtF : ℝ → Str
  parse : Str → Option ℝ

end Dissect
