import Verif.Lemmas.Cli

/-! # C68, C70, C74: command lines of the pipelines -/

namespace Dissect

/-- The words after the options: none, or a first word that is not an option. -/
def Positional (tail : List Str) : Prop := ∀ a, tail.head? = some a → a.head? ≠ some '-'

/-- `cfg` is what the configuration file named on the command line says about the section of the script: the parsed file
when there is exactly one positional argument and it can be read; nothing when there is no such argument, or when it
cannot be read and the script does not open it itself. -/
def ConfigSeen (c : Cli) (parse : Str → Py Config) (fs : Fs) (tail : List Str) (cfg : Str → Option Str) : Prop :=
  match tail with
  | [f] => (∃ txt g, fs.read f = .ok txt ∧ parse txt = .ok g ∧ cfg = g c.sect) ∨
      ((∃ e, fs.read f = .error e) ∧ c.mustOpen = false ∧ cfg = fun _ => none)
  | _ => cfg = fun _ => none

theorem getopt_positional {short : Str} {longs tail : List Str} (h : Positional tail) :
    getopt short longs tail = some ([], tail) := by
  cases tail with
  | nil => exact getopt_nil _ _
  | cons a t => exact getopt_stop _ _ _ (Or.inl (h a rfl)) _

theorem initial_seen {c : Cli} {docs : List DocOpt} (hok : c.ok docs = true) {parse : Str → Py Config} {fs : Fs}
    {tail : List Str} {cfg : Str → Option Str} (h : ConfigSeen c parse fs tail cfg) :
    ∃ st, c.initial parse fs tail = .ok st ∧ ∀ o ∈ docs, st o.var = wanted [] cfg o := by
  have nocfg : ∀ o ∈ docs, c.defaults o.var = wanted [] (fun _ => none) o := by
    intro o ho
    rw [defaults_doc hok ho]; rfl
  unfold ConfigSeen at h
  split at h
  · rename_i f
    rcases h with ⟨txt, g, h1, h2, rfl⟩ | ⟨⟨e, h1⟩, h2, rfl⟩
    · refine ⟨c.fromConfig g, by simp [Cli.initial, h1, h2], ?_⟩
      intro o ho
      rw [fromConfig_doc hok ho]; rfl
    · exact ⟨c.defaults, by simp [Cli.initial, h1, h2], nocfg⟩
  · rename_i hne
    subst h
    refine ⟨c.defaults, ?_, nocfg⟩
    unfold Cli.initial
    split
    · rename_i f
      exact absurd rfl (hne f)
    · rfl

/-- Option processing for any list of options that the table of a script serves. -/
theorem parse_values {c : Cli} {docs : List DocOpt} (hok : c.ok docs = true)
    (parse : Str → Py Config) (fs : Fs) (gs : List Given) (hg : ∀ g ∈ gs, g.Valid docs)
    (tail : List Str) (ht : Positional tail) (cfg : Str → Option Str) (hcfg : ConfigSeen c parse fs tail cfg) :
    ∃ st, c.parseArgs parse fs ((gs.map Given.render).flatten ++ tail) = .ok st ∧
      ∀ o ∈ docs, st o.var = wanted gs cfg o := by
  obtain ⟨st0, h0, h1⟩ := initial_seen hok hcfg
  obtain ⟨st, h2, h3⟩ := optLoop_givens hok hg st0
  refine ⟨st, ?_, ?_⟩
  · unfold Cli.parseArgs
    rw [getopt_givens hok (getopt_positional ht) hg]
    simp only [h0]
    exact h2
  · intro o ho
    rw [h3 o ho, h1 o ho]
    unfold wanted
    cases lastGiven gs o <;> rfl

/-- **C68** (partial: for the options whose documentation agrees with the code, i.e. all but `--crossvalidation` of
`train_composition.py` and `--sim_measure` of the two similarity scripts; see the refutations below and C70).
For every script, every list of documented options in any spelling, with any values and any repetitions, and any
configuration file: option processing succeeds and each variable has the value of the last occurrence on the command
line, else the one of the configuration file, else the documented default. -/
theorem C68_values_partial {c : Cli} {docs : List DocOpt} (hc : (c, docs) ∈ documentedScripts)
    (parse : Str → Py Config) (fs : Fs) (gs : List Given) (hg : ∀ g ∈ gs, g.Valid docs)
    (tail : List Str) (ht : Positional tail) (cfg : Str → Option Str) (hcfg : ConfigSeen c parse fs tail cfg) :
    ∃ st, c.parseArgs parse fs ((gs.map Given.render).flatten ++ tail) = .ok st ∧
      ∀ o ∈ docs, st o.var = wanted gs cfg o :=
  parse_values (documentedScripts_ok _ hc) parse fs gs hg tail ht cfg hcfg

/-- A concrete instance: `-i a --input=b` followed by the name of a configuration file that sets `input` and `output`. -/
example : ∃ st, cliCore.parseArgs (fun _ => .ok (fun _ o => if o = cs!"output" then some cs!"dir" else some cs!"x"))
    ⟨[], [[]], Dict.empty.set [cs!"f"] cs!"text"⟩ [cs!"-i", cs!"a", cs!"--input=b", cs!"f"] = .ok st ∧
    st cs!"in_file_prefix" = .str cs!"b" ∧ st cs!"out_dir" = .str cs!"dir" := by
  obtain ⟨st, h1, h2⟩ := C68_values_partial (c := cliCore) (docs := docCore) (by simp [documentedScripts])
    (fun _ => .ok (fun _ o => if o = cs!"output" then some cs!"dir" else some cs!"x"))
    ⟨[], [[]], Dict.empty.set [cs!"f"] cs!"text"⟩
    [⟨docCore[0], .shortSep 'i', cs!"a"⟩, ⟨docCore[0], .longEq, cs!"b"⟩]
    (by intro g hg; simp only [List.mem_cons, List.not_mem_nil, or_false] at hg
        rcases hg with rfl | rfl <;> simp [Given.Valid, docCore])
    [cs!"f"] (by intro a ha; simp at ha; subst ha; simp) _
    (Or.inl ⟨cs!"text", _, rfl, rfl, rfl⟩)
  refine ⟨st, h1, ?_, ?_⟩
  · exact h2 docCore[0] (by simp [docCore])
  · exact h2 docCore[1] (by simp [docCore])

/-- A configuration file that cannot be read stops `build_core_space` and `compute_neighbours`. -/
theorem C68_missing_config {c : Cli} {docs : List DocOpt} (hc : (c, docs) ∈ documentedScripts) (hm : c.mustOpen = true)
    (parse : Str → Py Config) (fs : Fs) (gs : List Given) (hg : ∀ g ∈ gs, g.Valid docs) (f : Str)
    (hf : f.head? ≠ some '-') (e : PyErr) (hr : fs.read f = .error e) :
    c.parseArgs parse fs ((gs.map Given.render).flatten ++ [f]) = .error (.raised e) := by
  have hok := documentedScripts_ok _ hc
  unfold Cli.parseArgs
  rw [getopt_givens hok (getopt_positional (tail := [f]) (by intro a ha; simp at ha; exact ha ▸ hf)) hg]
  simp [Cli.initial, hr, hm]
  rfl

/-- Refuted part of **C68**: the usage text of `train_composition.py` gives `--crossvalidation` the default `True`; with
any documented options and no configuration file it is `False`. -/
theorem C68_refuted_crossvalidation (parse : Str → Py Config) (fs : Fs) :
    ∃ st, cliTrain.parseArgs parse fs [] = .ok st ∧ st docCrossvalidation.var = .str cs!"False" ∧
      st docCrossvalidation.var ≠ wanted [] (fun _ => none) docCrossvalidation := by
  refine ⟨cliTrain.defaults, ?_, by decide, by decide⟩
  simp only [Cli.parseArgs, getopt_nil]
  rfl

/-- Refuted part of **C68**: the usage texts of `compute_similarities.py` and `evaluate_similarities.py` give `--log` the
default `./build_core_space.log`; without options there is no log file. -/
theorem C68_refuted_log_default (parse : Str → Py Config) (fs : Fs) {c : Cli} (hc : c = cliSims ∨ c = cliEval) :
    ∃ st, c.parseArgs parse fs [] = .ok st ∧ st docLogDefault.var = .none ∧
      st docLogDefault.var ≠ wanted [] (fun _ => none) docLogDefault := by
  rcases hc with rfl | rfl
  · refine ⟨cliSims.defaults, ?_, by decide, by decide⟩
    simp only [Cli.parseArgs, getopt_nil]
    rfl
  · refine ⟨cliEval.defaults, ?_, by decide, by decide⟩
    simp only [Cli.parseArgs, getopt_nil]
    rfl

/-- Refuted part of **C68**: a configuration file setting the documented option `sim_measure` of
`compute_similarities.py` (and nothing else) is ignored; the script looks for `sim_measures`. -/
theorem C68_refuted_sim_measure (parse : Str → Py Config) (fs : Fs) (f txt v : Str) (g : Config)
    (hf : f.head? ≠ some '-') (hr : fs.read f = .ok txt) (hp : parse txt = .ok g)
    (hv : ∀ o, g cliSims.sect o = if o = cs!"sim_measure" then some v else none) :
    ∃ st, cliSims.parseArgs parse fs [f] = .ok st ∧ st docSimMeasure.var = .none ∧
      st docSimMeasure.var ≠ wanted [] (g cliSims.sect) docSimMeasure := by
  refine ⟨cliSims.fromConfig g, ?_, ?_, ?_⟩
  · unfold Cli.parseArgs
    rw [getopt_stop _ _ _ (Or.inl hf)]
    simp [Cli.initial, hr, hp]
    rfl
  · have := hv cs!"sim_measures"
    simp only [List.cons.injEq, reduceCtorEq, and_false, if_false] at this
    simp only [cliSims] at this
    simp [Cli.fromConfig, this, docSimMeasure, cliSims]
  · have := hv cs!"sim_measures"
    simp only [List.cons.injEq, reduceCtorEq, and_false, if_false] at this
    simp only [cliSims] at this
    have h2 := hv cs!"sim_measure"
    simp only [cliSims, if_true] at h2
    simp [Cli.fromConfig, this, h2, docSimMeasure, cliSims, wanted, lastGiven, DocOpt.value]

/-! ### C74: exit status -/

/-- **C74** refuted: whatever the mistake that `getopt` finds on the command line (unknown option, ambiguous
abbreviation, missing or superfluous value), each script exits with status 0, as if it had succeeded. -/
theorem C74_refuted {c : Cli} (parse : Str → Py Config) (fs : Fs) (argv : List Str)
    (h : getopt c.short c.longs argv = none) : c.parseArgs parse fs argv = .error (.exit 0) := by
  unfold Cli.parseArgs
  rw [h]

theorem longHasArgs_unknown {longs : List Str} {opt : Str} (h : ∀ o ∈ longs, ¬ opt <+: o) :
    longHasArgs opt longs = none := by
  have : longs.filter (fun o => opt.isPrefixOf o) = [] := by
    rw [List.filter_eq_nil_iff]
    intro o ho hp
    exact h o ho (List.isPrefixOf_iff_prefix.1 hp)
  simp [longHasArgs, this]

/-- The hypothesis of `C74_refuted` is met by every unknown long option after any documented ones. -/
theorem C74_unknown_option_refuted {c : Cli} {docs : List DocOpt} (hc : (c, docs) ∈ documentedScripts)
    (parse : Str → Py Config) (fs : Fs) (gs : List Given) (hg : ∀ g ∈ gs, g.Valid docs) (name : Str)
    (hn : name ≠ []) (he : '=' ∉ name) (hu : ∀ o ∈ c.longs, ¬ name <+: o) (more : List Str) :
    c.parseArgs parse fs ((gs.map Given.render).flatten ++ (['-', '-'] ++ name) :: more) = .error (.exit 0) := by
  apply C74_refuted
  have hok := documentedScripts_ok _ hc
  induction gs with
  | nil =>
    cases name with
    | nil => exact absurd rfl hn
    | cons a s =>
      simp only [List.map_nil, List.flatten_nil, List.nil_append]
      rw [show (['-', '-'] ++ (a :: s)) = '-' :: '-' :: a :: s from rfl, getopt_long]
      simp [doLongs, splitEq_none he, longHasArgs_unknown hu]
  | cons g gs ih =>
    rw [List.map_cons, List.flatten_cons, List.append_assoc, getopt_given hok (hg g (by simp)),
      ih (fun g' hg' => hg g' (by simp [hg']))]
    rfl

example : (∀ o ∈ cliCore.longs, ¬ cs!"bogus" <+: o) := by decide

/-- What does give a non-zero status: an option that `getopt` accepts but no branch handles. -/
theorem C74_unhandled_partial {c : Cli} (parse : Str → Py Config) (fs : Fs) (argv rest : List Str)
    (ps qs : List OptPair) (o v : Str) (st : Settings)
    (h : getopt c.short c.longs argv = some (ps ++ (o, v) :: qs, rest))
    (hi : c.initial parse fs rest = .ok st)
    (hps : ∀ p ∈ ps, ∃ r ∈ c.rows, p.1 ∈ r.flags) (ho : ∀ r ∈ c.rows, o ∉ r.flags)
    (hh : o ≠ cs!"-h" ∧ o ≠ cs!"--help") :
    c.parseArgs parse fs argv = .error (.exit 1) := by
  unfold Cli.parseArgs
  rw [h]
  simp only [hi]
  change c.optLoop _ st = _
  clear h hi
  induction ps generalizing st with
  | nil =>
    have : c.rows.find? (fun r => decide (o ∈ r.flags)) = none := by
      rw [List.find?_eq_none]
      intro r hr
      simpa using ho r hr
    simp [Cli.optLoop, this, hh.1, hh.2]
  | cons p ps ih =>
    obtain ⟨a, b⟩ := p
    obtain ⟨r, hr, hrf⟩ := hps (a, b) (by simp)
    rw [List.cons_append]
    unfold Cli.optLoop
    cases hf : c.rows.find? (fun r => decide (a ∈ r.flags)) with
    | none =>
      rw [List.find?_eq_none] at hf
      exact absurd hrf (by simpa using hf r hr)
    | some r' =>
      exact ih _ (fun p hp => hps p (by simp [hp]))

/-! ### C70: the similarity measure of `compute_neighbours` -/

/-- The spellings of the documented long option `--sim_measure` with value `v`. -/
def simMeasureWords (v : Str) (joined : Bool) : List Str :=
  if joined then [cs!"--sim_measure=" ++ v] else [cs!"--sim_measure", v]

theorem getopt_simMeasure (v : Str) (joined : Bool) (args : List Str) :
    getopt cliNeigh.short cliNeigh.longs (simMeasureWords v joined ++ args) =
      (getopt cliNeigh.short cliNeigh.longs args).bind (fun r => some ((cs!"--sim_measures", v) :: r.1, r.2)) := by
  have hl : longHasArgs cs!"sim_measure" cliNeigh.longs = some (true, cs!"sim_measures") := by decide
  cases joined
  · exact getopt_longSep (name := cs!"sim_measure") (by decide) (by decide) hl args
  · exact getopt_longEq (name := cs!"sim_measure") (by decide) (by decide) hl args

/-- **C70** refuted: whatever the value, whatever other documented options stand around it and whatever the
configuration file says, the documented `--sim_measure` makes `compute_neighbours` print its usage and exit with
status 1. -/
theorem C70_refuted (parse : Str → Py Config) (fs : Fs) (gs hs : List Given) (hg : ∀ g ∈ gs, g.Valid docNeigh)
    (hh : ∀ g ∈ hs, g.Valid docNeigh) (v : Str) (joined : Bool) (tail : List Str) (ht : Positional tail)
    (cfg : Str → Option Str) (hcfg : ConfigSeen cliNeigh parse fs tail cfg) :
    cliNeigh.parseArgs parse fs ((gs.map Given.render).flatten ++ (simMeasureWords v joined ++
      ((hs.map Given.render).flatten ++ tail))) = .error (.exit 1) := by
  have hok : cliNeigh.ok docNeigh = true :=
    documentedScripts_ok (cliNeigh, docNeigh) (by simp [documentedScripts])
  obtain ⟨st0, h0, -⟩ := initial_seen hok hcfg
  refine C74_unhandled_partial parse fs _ tail (gs.map Given.pair) (hs.map Given.pair) cs!"--sim_measures" v st0 ?_ h0 ?_
    (by decide) (by decide)
  · have h1 := getopt_givens hok (getopt_positional ht) hh
    have h2 : getopt cliNeigh.short cliNeigh.longs (simMeasureWords v joined ++ ((hs.map Given.render).flatten ++ tail)) =
        some ((cs!"--sim_measures", v) :: hs.map Given.pair, tail) := by
      rw [getopt_simMeasure, h1]; rfl
    clear h1 h0 hh
    induction gs with
    | nil => simpa using h2
    | cons g gs ih =>
      rw [List.map_cons, List.flatten_cons, List.append_assoc, getopt_given hok (hg g (by simp)),
        ih (fun g' hg' => hg g' (by simp [hg']))]
      rfl
  · intro p hp
    obtain ⟨g, hgm, rfl⟩ := List.mem_map.1 hp
    obtain ⟨r, hr, -⟩ := pair_row hok (hg g hgm)
    exact ⟨r, List.mem_of_find?_eq_some hr, by have := List.find?_some hr; simpa using this⟩

/-- `getopt` accepts `-m v`. -/
theorem getopt_m (v : Str) (args : List Str) :
    getopt cliNeigh.short cliNeigh.longs ([cs!"-m", v] ++ args) =
      (getopt cliNeigh.short cliNeigh.longs args).bind (fun r => some ((cs!"-m", v) :: r.1, r.2)) :=
  getopt_shortSep (by decide) (by decide) args

/-- **C70** (partial: the short spelling only): `-m v`, with any other documented options around it, sets the measure. -/
theorem C70_short_partial (parse : Str → Py Config) (fs : Fs) (gs hs : List Given) (hg : ∀ g ∈ gs, g.Valid docNeigh)
    (hh : ∀ g ∈ hs, g.Valid docNeigh) (v : Str) (tail : List Str) (ht : Positional tail)
    (cfg : Str → Option Str) (hcfg : ConfigSeen cliNeigh parse fs tail cfg) :
    ∃ st, cliNeigh.parseArgs parse fs ((gs.map Given.render).flatten ++ ([cs!"-m", v] ++
      ((hs.map Given.render).flatten ++ tail))) = .ok st ∧ st cs!"sim_measure" = .str v ∧
      ∀ o ∈ docNeigh, st o.var = wanted (gs ++ hs) cfg o := by
  have hok : cliNeigh.ok docNeigh = true :=
    documentedScripts_ok (cliNeigh, docNeigh) (by simp [documentedScripts])
  obtain ⟨st0, h0, h0'⟩ := initial_seen hok hcfg
  obtain ⟨st1, h1, h1'⟩ := optLoop_givens hok hg st0
  obtain ⟨st2, h2, h2'⟩ := optLoop_givens hok hh (st1.set cs!"sim_measure" (.str v))
  have hnot : ∀ o ∈ docNeigh, o.var ≠ cs!"sim_measure" := by decide
  refine ⟨st2, ?_, ?_, ?_⟩
  · have h3 : getopt cliNeigh.short cliNeigh.longs ([cs!"-m", v] ++ ((hs.map Given.render).flatten ++ tail)) =
        some ((cs!"-m", v) :: hs.map Given.pair, tail) := by
      rw [getopt_m, getopt_givens hok (getopt_positional ht) hh]; rfl
    have h4 : getopt cliNeigh.short cliNeigh.longs ((gs.map Given.render).flatten ++ ([cs!"-m", v] ++
        ((hs.map Given.render).flatten ++ tail))) = some (gs.map Given.pair ++ (cs!"-m", v) :: hs.map Given.pair, tail) := by
      clear h1 h1' h2'
      induction gs with
      | nil => simpa using h3
      | cons g gs ih =>
        rw [List.map_cons, List.flatten_cons, List.append_assoc, getopt_given hok (hg g (by simp)),
          ih (fun g' hg' => hg g' (by simp [hg']))]
        rfl
    unfold Cli.parseArgs
    rw [h4]
    simp only [h0]
    change cliNeigh.optLoop _ st0 = _
    rw [optLoop_append, h1]
    exact h2
  · rw [optLoop_other hok hnot hh h2]
    simp [Settings.set]
  · intro o ho
    rw [h2' o ho]
    unfold wanted
    rw [lastGiven_append]
    cases lastGiven hs o with
    | some x => rfl
    | none =>
      simp only [Settings.set]
      rw [if_neg (hnot o ho), h1' o ho, h0' o ho]
      unfold wanted
      cases lastGiven gs o <;> rfl

example : ConfigSeen cliNeigh (fun _ => .error .valueError) ⟨[], [[]], Dict.empty⟩ [] (fun _ => none) := rfl

end Dissect
