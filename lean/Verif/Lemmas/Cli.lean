import Verif.Spec.Cli
import Verif.Lemmas.Py

/-! # The option tables implement the documented options -/

namespace Dissect

/-- Row `r` is what the table does for option `o`. -/
def OptRow.Serves (r : OptRow) (o : DocOpt) : Prop := r.var = o.var ∧ r.csv = o.csv

instance (r : OptRow) (o : DocOpt) : Decidable (r.Serves o) := by unfold OptRow.Serves; infer_instance

/-- The row found for a flag. -/
def Cli.serves (c : Cli) (flag : Str) (o : DocOpt) : Bool :=
  match c.rows.find? (fun r => decide (flag ∈ r.flags)) with
  | some r => decide (r.Serves o)
  | none => false

/-- The checks on one documented option. -/
def Cli.optOk (c : Cli) (o : DocOpt) : Bool :=
  (match o.short with
    | none => true
    | some ch => decide (ch ≠ '-' ∧ shortHasArg ch c.short = some true) && c.serves ['-', ch] o) &&
  decide (o.long ≠ [] ∧ '=' ∉ o.long ∧ longHasArgs o.long c.longs = some (true, o.long)) &&
  c.serves (['-', '-'] ++ o.long) o &&
  (match c.rows.find? (fun r => decide (r.var = o.var)) with
    | some r => decide (r.Serves o ∧ r.cfg = o.long ∧ r.dflt = o.dflt)
    | none => false)

/-- The checks on a script. -/
def Cli.ok (c : Cli) (docs : List DocOpt) : Bool :=
  docs.all c.optOk && docs.all (fun a => docs.all (fun b => decide (a.var = b.var ↔ a.long = b.long)))

theorem documentedScripts_ok : ∀ p ∈ documentedScripts, p.1.ok p.2 = true := by
  decide +kernel


/-- The pair `getopt` produces for an option given by the user. -/
def Given.pair (g : Given) : OptPair :=
  match g.how with
  | .shortSep c => (['-', c], g.value)
  | .shortJoined c => (['-', c], g.value)
  | .longSep => (['-', '-'] ++ g.opt.long, g.value)
  | .longEq => (['-', '-'] ++ g.opt.long, g.value)

theorem splitEq_none {s : Str} (h : '=' ∉ s) : splitEq s = (s, none) := by
  unfold splitEq
  have : s.dropWhile (fun c => decide (c ≠ '=')) = [] := by
    induction s with
    | nil => rfl
    | cons a s ih =>
      simp only [List.mem_cons, not_or] at h
      rw [List.dropWhile_cons_of_pos (by simpa using fun e => h.1 e.symm)]
      exact ih h.2
  rw [this]

theorem splitEq_some {s v : Str} (h : '=' ∉ s) : splitEq (s ++ '=' :: v) = (s, some v) := by
  unfold splitEq
  have h1 : (s ++ '=' :: v).dropWhile (fun c => decide (c ≠ '=')) = '=' :: v := by
    induction s with
    | nil => simp
    | cons a s ih =>
      simp only [List.mem_cons, not_or] at h
      rw [List.cons_append, List.dropWhile_cons_of_pos (by simpa using fun e => h.1 e.symm)]
      exact ih h.2
  have h2 : (s ++ '=' :: v).takeWhile (fun c => decide (c ≠ '=')) = s := by
    clear h1
    induction s with
    | nil => simp
    | cons a s ih =>
      simp only [List.mem_cons, not_or] at h
      rw [List.cons_append, List.takeWhile_cons_of_pos (by simpa using fun e => h.1 e.symm), ih h.2]
  rw [h1, h2]

theorem doLongs_sep {longs : List Str} {name v : Str} (h : '=' ∉ name)
    (hl : longHasArgs name longs = some (true, full)) (args : List Str) :
    doLongs longs name (v :: args) = some ((['-', '-'] ++ full, v), args) := by
  simp only [doLongs, splitEq_none h, hl]

theorem doLongs_eq {longs : List Str} {name v : Str} (h : '=' ∉ name)
    (hl : longHasArgs name longs = some (true, full)) (args : List Str) :
    doLongs longs (name ++ '=' :: v) args = some ((['-', '-'] ++ full, v), args) := by
  simp only [doLongs, splitEq_some h, hl]

theorem getopt_longSep {short : Str} {longs : List Str} {name full v : Str} (hn : name ≠ []) (h : '=' ∉ name)
    (hl : longHasArgs name longs = some (true, full)) (args : List Str) :
    getopt short longs ((['-', '-'] ++ name) :: v :: args) =
      (getopt short longs args).bind (fun r => some ((['-', '-'] ++ full, v) :: r.1, r.2)) := by
  cases name with
  | nil => exact absurd rfl hn
  | cons c s =>
    rw [show (['-', '-'] ++ (c :: s)) = '-' :: '-' :: c :: s from rfl, getopt_long, doLongs_sep h hl]
    rfl

theorem getopt_longEq {short : Str} {longs : List Str} {name full v : Str} (hn : name ≠ []) (h : '=' ∉ name)
    (hl : longHasArgs name longs = some (true, full)) (args : List Str) :
    getopt short longs ((['-', '-'] ++ name ++ ['='] ++ v) :: args) =
      (getopt short longs args).bind (fun r => some ((['-', '-'] ++ full, v) :: r.1, r.2)) := by
  cases name with
  | nil => exact absurd rfl hn
  | cons c s =>
    rw [show (['-', '-'] ++ (c :: s) ++ ['='] ++ v) = '-' :: '-' :: c :: (s ++ '=' :: v) by simp, getopt_long,
      show c :: (s ++ '=' :: v) = (c :: s) ++ '=' :: v from rfl, doLongs_eq h hl]
    rfl

theorem getopt_shortSep {short : Str} {longs : List Str} {c : Char} {v : Str} (hc : c ≠ '-')
    (hl : shortHasArg c short = some true) (args : List Str) :
    getopt short longs (['-', c] :: v :: args) =
      (getopt short longs args).bind (fun r => some ((['-', c], v) :: r.1, r.2)) := by
  rw [getopt_short _ _ _ hc]
  simp only [doShorts, hl, Option.bind_some, List.singleton_append]

theorem getopt_shortJoined {short : Str} {longs : List Str} {c : Char} {v : Str} (hc : c ≠ '-') (hv : v ≠ [])
    (hl : shortHasArg c short = some true) (args : List Str) :
    getopt short longs (('-' :: c :: v) :: args) =
      (getopt short longs args).bind (fun r => some ((['-', c], v) :: r.1, r.2)) := by
  rw [getopt_short _ _ _ hc]
  cases v with
  | nil => exact absurd rfl hv
  | cons a v => simp only [doShorts, hl, Option.bind_some, List.singleton_append]

theorem Cli.ok_opt {c : Cli} {docs : List DocOpt} (h : c.ok docs = true) {o : DocOpt} (ho : o ∈ docs) :
    c.optOk o = true := by
  unfold Cli.ok at h
  simp only [Bool.and_eq_true, List.all_eq_true] at h
  exact h.1 o ho

theorem Cli.ok_var {c : Cli} {docs : List DocOpt} (h : c.ok docs = true) {a b : DocOpt} (ha : a ∈ docs) (hb : b ∈ docs) :
    a.var = b.var ↔ a.long = b.long := by
  unfold Cli.ok at h
  simp only [Bool.and_eq_true, List.all_eq_true] at h
  exact of_decide_eq_true (h.2 a ha b hb)

/-- `getopt` on the words of one given option. -/
theorem getopt_given {c : Cli} {docs : List DocOpt} (h : c.ok docs = true) {g : Given} (hg : g.Valid docs)
    (args : List Str) :
    getopt c.short c.longs (g.render ++ args) =
      (getopt c.short c.longs args).bind (fun r => some (g.pair :: r.1, r.2)) := by
  obtain ⟨ho, hv⟩ := hg
  have hok := Cli.ok_opt h ho
  unfold Cli.optOk at hok
  simp only [Bool.and_eq_true, decide_eq_true_eq] at hok
  obtain ⟨⟨⟨h1, h2, h3, h4⟩, -⟩, -⟩ := hok
  unfold Given.render Given.pair
  cases hh : g.how with
  | shortSep ch =>
    simp only [hh] at hv ⊢
    simp only [hv, Bool.and_eq_true, decide_eq_true_eq] at h1
    exact getopt_shortSep h1.1.1 h1.1.2 args
  | shortJoined ch =>
    simp only [hh] at hv ⊢
    simp only [hv.1, Bool.and_eq_true, decide_eq_true_eq] at h1
    exact getopt_shortJoined h1.1.1 hv.2 h1.1.2 args
  | longSep => exact getopt_longSep h2 h3 h4 args
  | longEq => exact getopt_longEq h2 h3 h4 args

theorem getopt_givens {c : Cli} {docs : List DocOpt} (h : c.ok docs = true) {args : List Str} {rest : List Str}
    (hr : getopt c.short c.longs args = some ([], rest)) :
    ∀ {gs : List Given}, (∀ g ∈ gs, g.Valid docs) →
    getopt c.short c.longs ((gs.map Given.render).flatten ++ args) = some (gs.map Given.pair, rest) := by
  intro gs
  induction gs with
  | nil => intro _; simpa using hr
  | cons g gs ih =>
    intro hv
    rw [List.map_cons, List.flatten_cons, List.append_assoc, getopt_given h (hv g (by simp)),
      ih (fun g' hg' => hv g' (by simp [hg']))]
    rfl

/-- The flag of a given option finds a row serving it. -/
theorem pair_row {c : Cli} {docs : List DocOpt} (h : c.ok docs = true) {g : Given} (hg : g.Valid docs) :
    ∃ r, c.rows.find? (fun r => decide (g.pair.1 ∈ r.flags)) = some r ∧ r.Serves g.opt := by
  obtain ⟨ho, hv⟩ := hg
  have hok := Cli.ok_opt h ho
  unfold Cli.optOk at hok
  simp only [Bool.and_eq_true, decide_eq_true_eq] at hok
  obtain ⟨⟨⟨h1, -⟩, h5⟩, -⟩ := hok
  have key : ∀ flag, c.serves flag g.opt = true →
      ∃ r, c.rows.find? (fun r => decide (flag ∈ r.flags)) = some r ∧ r.Serves g.opt := by
    intro flag hf
    unfold Cli.serves at hf
    split at hf
    · rename_i r hr
      exact ⟨r, hr, of_decide_eq_true hf⟩
    · cases hf
  unfold Given.pair
  cases hh : g.how with
  | shortSep ch =>
    simp only [hh] at hv
    simp only [hv, Bool.and_eq_true] at h1
    exact key _ h1.2
  | shortJoined ch =>
    simp only [hh] at hv
    simp only [hv.1, Bool.and_eq_true] at h1
    exact key _ h1.2
  | longSep => exact key _ h5
  | longEq => exact key _ h5

theorem Given.pair_snd (g : Given) : g.pair.2 = g.value := by
  unfold Given.pair
  split <;> rfl

theorem OptRow.Serves.value {r : OptRow} {o : DocOpt} (h : r.Serves o) (v : Str) : r.value v = o.value v := by
  unfold OptRow.value DocOpt.value
  rw [h.2]

theorem lastGiven_cons (g : Given) (gs : List Given) (o : DocOpt) :
    lastGiven (g :: gs) o = match lastGiven gs o with
      | some v => some v
      | none => if g.opt.long = o.long then some g.value else none := by
  unfold lastGiven
  rw [List.filter_cons]
  by_cases hg : g.opt.long = o.long
  · simp only [hg, decide_true, if_true]
    cases hf : gs.filter (fun g => decide (g.opt.long = o.long)) with
    | nil => simp
    | cons a l =>
      rw [List.getLast?_cons_cons]
      have : (a :: l).getLast? = some ((a :: l).getLast (by simp)) := List.getLast?_eq_some_getLast (by simp)
      rw [this]; rfl
  · rw [if_neg (by simpa using hg), if_neg hg]
    generalize (gs.filter (fun g => decide (g.opt.long = o.long))).getLast? = x
    cases x <;> rfl

theorem optLoop_givens {c : Cli} {docs : List DocOpt} (h : c.ok docs = true) : ∀ {gs : List Given},
    (∀ g ∈ gs, g.Valid docs) → ∀ st : Settings, ∃ st', c.optLoop (gs.map Given.pair) st = .ok st' ∧
      ∀ o ∈ docs, st' o.var = match lastGiven gs o with
        | some v => o.value v
        | none => st o.var := by
  intro gs
  induction gs with
  | nil => intro _ st; exact ⟨st, rfl, fun o _ => rfl⟩
  | cons g gs ih =>
    intro hv st
    obtain ⟨r, hr, hs⟩ := pair_row h (hv g (by simp))
    obtain ⟨st', h1, h2⟩ := ih (fun g' hg' => hv g' (by simp [hg'])) (st.set r.var (r.value g.value))
    refine ⟨st', ?_, ?_⟩
    · rw [List.map_cons]
      rw [show g.pair = (g.pair.1, g.value) by rw [← g.pair_snd]]
      unfold Cli.optLoop
      rw [hr]
      exact h1
    · intro o ho
      rw [h2 o ho, lastGiven_cons]
      cases hl : lastGiven gs o with
      | some v => rfl
      | none =>
        simp only []
        have hvar := Cli.ok_var h (hv g (by simp)).1 ho
        unfold Settings.set
        by_cases hg : g.opt.long = o.long
        · rw [if_pos hg, if_pos (by rw [hs.1]; exact (hvar.2 hg).symm)]
          simp only []
          rw [hs.value]
          have : g.opt.csv = o.csv := by
            have hok1 := Cli.ok_opt h (hv g (by simp)).1
            have hok2 := Cli.ok_opt h ho
            unfold Cli.optOk at hok1 hok2
            simp only [Bool.and_eq_true, decide_eq_true_eq] at hok1 hok2
            have e1 := hok1.2
            have e2 := hok2.2
            rw [hvar.2 hg] at e1
            split at e1
            · rename_i r' hr'
              rw [hr'] at e2
              simp only [decide_eq_true_eq] at e1 e2
              rw [← e1.1.2, ← e2.1.2]
            · cases e1
          unfold DocOpt.value
          rw [this]
        · rw [if_neg hg, if_neg (by rw [hs.1]; exact fun e => hg (hvar.1 e.symm))]

theorem optLoop_append (c : Cli) (qs : List OptPair) : ∀ (ps : List OptPair) (st : Settings),
    c.optLoop (ps ++ qs) st = (c.optLoop ps st).bind (c.optLoop qs) := by
  intro ps
  induction ps with
  | nil => intro st; rfl
  | cons p ps ih =>
    intro st
    obtain ⟨o, v⟩ := p
    rw [List.cons_append]
    unfold Cli.optLoop
    split
    · exact ih _
    · split <;> rfl

/-- Options do not touch other variables. -/
theorem optLoop_other {c : Cli} {docs : List DocOpt} (h : c.ok docs = true) {x : Str} (hx : ∀ o ∈ docs, o.var ≠ x) :
    ∀ {gs : List Given}, (∀ g ∈ gs, g.Valid docs) → ∀ {st st' : Settings},
    c.optLoop (gs.map Given.pair) st = .ok st' → st' x = st x := by
  intro gs
  induction gs with
  | nil => intro _ st st' he; cases he; rfl
  | cons g gs ih =>
    intro hv st st' he
    obtain ⟨r, hr, hs⟩ := pair_row h (hv g (by simp))
    rw [List.map_cons, show g.pair = (g.pair.1, g.value) by rw [← g.pair_snd]] at he
    unfold Cli.optLoop at he
    rw [hr] at he
    rw [ih (fun g' hg' => hv g' (by simp [hg'])) he]
    unfold Settings.set
    rw [if_neg]
    rw [hs.1]
    exact fun e => hx _ (hv g (by simp)).1 e.symm

theorem lastGiven_append (gs hs : List Given) (o : DocOpt) :
    lastGiven (gs ++ hs) o = match lastGiven hs o with
      | some v => some v
      | none => lastGiven gs o := by
  induction gs with
  | nil =>
    rw [List.nil_append]
    cases lastGiven hs o <;> rfl
  | cons g gs ih =>
    rw [List.cons_append, lastGiven_cons, ih, lastGiven_cons]
    cases lastGiven hs o <;> rfl

theorem cfg_row {c : Cli} {docs : List DocOpt} (h : c.ok docs = true) {o : DocOpt} (ho : o ∈ docs) :
    ∃ r, c.rows.find? (fun r => decide (r.var = o.var)) = some r ∧ r.Serves o ∧ r.cfg = o.long ∧ r.dflt = o.dflt := by
  have hok := Cli.ok_opt h ho
  unfold Cli.optOk at hok
  simp only [Bool.and_eq_true] at hok
  have := hok.2
  split at this
  · rename_i r hr
    exact ⟨r, hr, of_decide_eq_true this⟩
  · cases this

theorem defaults_doc {c : Cli} {docs : List DocOpt} (h : c.ok docs = true) {o : DocOpt} (ho : o ∈ docs) :
    c.defaults o.var = o.dflt := by
  obtain ⟨r, hr, -, -, hd⟩ := cfg_row h ho
  unfold Cli.defaults
  rw [hr]
  exact hd

theorem fromConfig_doc {c : Cli} {docs : List DocOpt} (h : c.ok docs = true) {o : DocOpt} (ho : o ∈ docs) (cfg : Config) :
    c.fromConfig cfg o.var = match cfg c.sect o.long with
      | some v => o.value v
      | none => o.dflt := by
  obtain ⟨r, hr, hs, hc, hd⟩ := cfg_row h ho
  unfold Cli.fromConfig
  rw [hr]
  simp only [hc, hd]
  cases cfg c.sect o.long with
  | none => rfl
  | some v => exact hs.value v

end Dissect
