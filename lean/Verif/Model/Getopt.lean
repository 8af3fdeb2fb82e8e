import Verif.Model.Text

/-!
# Python 2.7 `getopt.getopt`

The standard-library function every pipeline script uses to read its command line
(`/repo/src/pipelines/*.py`, first statement of `main`). Transcribed from `Lib/getopt.py` of Python 2.7.
-/

namespace Dissect

/-- A string literal as a list of characters. -/
syntax:max "cs!" str : term
macro_rules
  | `(cs! $s:str) => do
    let chars := (s.getString.toList.map Lean.Syntax.mkCharLit).toArray
    `([$chars,*])

/-- A pair `(option, value)` of the list returned by `getopt`. -/
abbrev OptPair := Str × Str

/-- `short_has_arg(opt, shortopts)`: the letter is searched; `none` is `GetoptError`. A `:` is never an option. -/
def shortHasArg (o : Char) : Str → Option Bool
  | [] => none
  | c :: rest => if o = c ∧ c ≠ ':' then some (decide (rest.head? = some ':')) else shortHasArg o rest

/-- `do_shorts(opts, optstring, shortopts, args)`: the pairs appended and the remaining arguments. -/
def doShorts (short : Str) : Str → List Str → Option (List OptPair × List Str)
  | [], args => some ([], args)
  | o :: rest, args =>
    match shortHasArg o short with
    | none => none
    | some false => match doShorts short rest args with
      | none => none
      | some (ps, args') => some ((['-', o], []) :: ps, args')
    | some true => match rest with
      | [] => match args with
        | [] => none
        | a :: args' => some ([(['-', o], a)], args')
      | _ :: _ => some ([(['-', o], rest)], args)

/-- `long_has_args(opt, longopts)`: does the option take a value, and its full name. An exact match wins, otherwise the
prefix must be unique. -/
def longHasArgs (opt : Str) (longs : List Str) : Option (Bool × Str) :=
  let poss := longs.filter (fun o => opt.isPrefixOf o)
  if opt ∈ poss then some (false, opt)
  else if opt ++ ['='] ∈ poss then some (true, opt)
  else match poss with
    | [u] => if u.getLast? = some '=' then some (true, u.dropLast) else some (false, u)
    | _ => none

/-- `opt, optarg = opt[:i], opt[i+1:]` at the first `=`; no value when there is none. -/
def splitEq (s : Str) : Str × Option Str :=
  match s.dropWhile (fun c => decide (c ≠ '=')) with
  | [] => (s, none)
  | _ :: v => (s.takeWhile (fun c => decide (c ≠ '=')), some v)

/-- `do_longs(opts, opt, longopts, args)`: the pair appended and the remaining arguments. -/
def doLongs (longs : List Str) (opt : Str) (args : List Str) : Option (OptPair × List Str) :=
  match longHasArgs (splitEq opt).1 longs, (splitEq opt).2 with
  | none, _ => none
  | some (true, name), some v => some ((['-', '-'] ++ name, v), args)
  | some (true, name), none => match args with
    | [] => none
    | a :: args' => some ((['-', '-'] ++ name, a), args')
  | some (false, _), some _ => none
  | some (false, name), none => some ((['-', '-'] ++ name, []), args)

theorem doShorts_length {short : Str} : ∀ {s : Str} {args : List Str} {ps : List OptPair} {args' : List Str},
    doShorts short s args = some (ps, args') → args'.length ≤ args.length := by
  intro s
  induction s with
  | nil => intro args ps args' h; simp [doShorts] at h; simp [h.2]
  | cons o rest ih =>
    intro args ps args' h
    unfold doShorts at h
    split at h
    · cases h
    · split at h
      · cases h
      · rename_i hq
        simp only [Option.some.injEq, Prod.mk.injEq] at h
        have := ih hq
        rw [← h.2]; exact this
    · split at h
      · split at h
        · cases h
        · simp only [Option.some.injEq, Prod.mk.injEq] at h
          rw [← h.2]; simp
      · simp only [Option.some.injEq, Prod.mk.injEq] at h
        rw [← h.2]

theorem doLongs_length {longs : List Str} {s : Str} {args : List Str} {p : OptPair} {args' : List Str}
    (h : doLongs longs s args = some (p, args')) : args'.length ≤ args.length := by
  unfold doLongs at h
  split at h
  · cases h
  · simp only [Option.some.injEq, Prod.mk.injEq] at h; rw [← h.2]
  · split at h
    · cases h
    · simp only [Option.some.injEq, Prod.mk.injEq] at h; rw [← h.2]; simp
  · cases h
  · simp only [Option.some.injEq, Prod.mk.injEq] at h; rw [← h.2]

/-- `getopt.getopt(args, shortopts, longopts)`: the option pairs and the remaining arguments; `none` is `GetoptError`. -/
def getopt (short : Str) (longs : List Str) : List Str → Option (List OptPair × List Str)
  | [] => some ([], [])
  | a :: args =>
    match a with
    | '-' :: '-' :: [] => some ([], args)
    | '-' :: '-' :: c :: s => match h : doLongs longs (c :: s) args with
      | none => none
      | some (p, args') => match getopt short longs args' with
        | none => none
        | some (ps, rest) => some (p :: ps, rest)
    | '-' :: c :: s => match h : doShorts short (c :: s) args with
      | none => none
      | some (ps, args') => match getopt short longs args' with
        | none => none
        | some (ps', rest) => some (ps ++ ps', rest)
    | _ => some ([], a :: args)
termination_by args => args.length
decreasing_by
  · have := doLongs_length h; simp only [List.length_cons]; omega
  · have := doShorts_length h; simp only [List.length_cons]; omega

theorem getopt_nil (short : Str) (longs : List Str) : getopt short longs [] = some ([], []) := by rw [getopt]

theorem getopt_end (short : Str) (longs : List Str) (args : List Str) :
    getopt short longs (['-', '-'] :: args) = some ([], args) := by rw [getopt]

theorem getopt_long (short : Str) (longs : List Str) (c : Char) (s : Str) (args : List Str) :
    getopt short longs (('-' :: '-' :: c :: s) :: args) =
      (doLongs longs (c :: s) args).bind (fun q =>
        (getopt short longs q.2).bind (fun r => some (q.1 :: r.1, r.2))) := by
  rw [getopt]
  split <;> rename_i h <;> simp only [h, Option.bind_none, Option.bind_some]
  split <;> rename_i h' <;> simp only [h', Option.bind_none, Option.bind_some]

theorem getopt_short (short : Str) (longs : List Str) (c : Char) (hc : c ≠ '-') (s : Str) (args : List Str) :
    getopt short longs (('-' :: c :: s) :: args) =
      (doShorts short (c :: s) args).bind (fun q =>
        (getopt short longs q.2).bind (fun r => some (q.1 ++ r.1, r.2))) := by
  rw [getopt]
  · split <;> rename_i h <;> simp only [h, Option.bind_none, Option.bind_some]
    split <;> rename_i h' <;> simp only [h', Option.bind_none, Option.bind_some]
  · intro h; exact absurd h hc
  · intro c' s' h; exact absurd h hc

theorem getopt_stop (short : Str) (longs : List Str) (a : Str) (h : a.head? ≠ some '-' ∨ a = ['-']) (args : List Str) :
    getopt short longs (a :: args) = some ([], a :: args) := by
  rw [getopt]
  · rintro rfl; simp at h
  · rintro c s rfl; simp at h
  · rintro c s rfl; simp at h

example : getopt cs!"hi:m:" [cs!"help", cs!"input=", cs!"sim_measures="]
    [cs!"-i", cs!"x", cs!"--sim_measure", cs!"cos", cs!"cfg"]
    = some ([(cs!"-i", cs!"x"), (cs!"--sim_measures", cs!"cos")], [cs!"cfg"]) := by
  simp [getopt_short, getopt_long, getopt_stop, doShorts, shortHasArg, doLongs, splitEq, longHasArgs]

end Dissect
