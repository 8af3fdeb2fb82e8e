import Verif.Lemmas.Config
import Verif.Lemmas.SplitCh
import Verif.Props.Cli
import Verif.Props.MainExit

/-! # C139: configuration files -/

namespace Dissect
namespace Cfg

theorem put_get (r : Reader) (s o : Str) (v : List Str) (s' o' : Str) :
    ((r.put s o v).dictOf s').get? o' = if s' = s ∧ o' = o then some v else (r.dictOf s').get? o' := by
  unfold Reader.put Reader.dictOf
  by_cases hs : s = defaultSect
  · subst hs
    rw [if_pos rfl]
    by_cases h' : s' = defaultSect
    · subst h'
      simp only [if_true, Dict.get?_set, true_and]
    · simp [h']
  · rw [if_neg hs]
    by_cases h' : s' = s
    · subst h'
      simp only [if_neg hs, Dict.get?_set, if_true, Option.getD_some, true_and]
    · by_cases h2 : s' = defaultSect
      · simp only [h2, if_true]
        rw [if_neg (fun h => hs h.1.symm)]
      · simp [h', h2, Dict.get?_set]

theorem put_sections (r : Reader) (s o : Str) (v : List Str) (s' : Str) :
    ((r.put s o v).sections.get? s').isSome ↔ (r.sections.get? s').isSome ∨ (s' = s ∧ s ≠ defaultSect) := by
  unfold Reader.put
  by_cases hs : s = defaultSect
  · rw [if_pos hs]; simp [hs]
  · rw [if_neg hs]
    simp only [Dict.get?_set]
    by_cases h' : s' = s <;> simp [h', hs]

theorem enter_get (r : Reader) (n s o : Str) : ((r.enter n).dictOf s).get? o = (r.dictOf s).get? o := by
  unfold Reader.enter
  split
  · rfl
  · rename_i h
    rw [not_or] at h
    unfold Reader.dictOf
    by_cases hs : s = defaultSect
    · simp [hs]
    · simp only [if_neg hs, Dict.get?_set]
      by_cases hn : s = n
      · subst hn
        have : r.sections.get? s = none := by
          cases hg : r.sections.get? s with
          | none => rfl
          | some v => exact absurd (Dict.contains_iff.2 ⟨v, hg⟩) h.1
        simp [this]
      · simp [hn]

theorem enter_sections (r : Reader) (n s : Str) :
    ((r.enter n).sections.get? s).isSome ↔ (r.sections.get? s).isSome ∨ (s = n ∧ n ≠ defaultSect) := by
  unfold Reader.enter
  split
  · rename_i h
    constructor
    · exact fun h => Or.inl h
    · rintro (h' | ⟨rfl, h'⟩)
      · exact h'
      · rcases h with h | h
        · obtain ⟨v, hv⟩ := Dict.contains_iff.1 h
          rw [hv]; rfl
        · exact absurd h h'
  · rename_i h
    rw [not_or] at h
    simp only [Dict.get?_set]
    by_cases hn : s = n <;> simp [hn, h.2]

/-- The last value with these keys. -/
def lastKey (values : List (Str × Str × Str)) (s o : Str) : Option Str :=
  ((values.filter (fun x => decide (x.1 = s ∧ x.2.1 = o))).getLast?).map (fun x => x.2.2)

theorem lastKey_snoc (values : List (Str × Str × Str)) (x : Str × Str × Str) (s o : Str) :
    lastKey (values ++ [x]) s o = if s = x.1 ∧ o = x.2.1 then some x.2.2 else lastKey values s o := by
  unfold lastKey
  rw [List.filter_append]
  by_cases h : x.1 = s ∧ x.2.1 = o
  · rw [if_pos ⟨h.1.symm, h.2.symm⟩, List.filter_cons_of_pos (by simpa using h)]
    simp
  · rw [if_neg (fun h' => h ⟨h'.1.symm, h'.2.symm⟩), List.filter_cons_of_neg (by simpa using h)]
    simp

theorem joinStr_snoc (sep t : Str) {l : List Str} (h : l ≠ []) : joinStr sep (l ++ [t]) = joinStr sep l ++ sep ++ t := by
  induction l with
  | nil => exact absurd rfl h
  | cons x xs ih =>
    cases xs with
    | nil => rfl
    | cons y ys =>
      rw [List.cons_append, joinStr_cons _ _ (by simp), ih (by simp), joinStr_cons _ x (by simp)]
      simp

/-- The state of the reader after lines that said `m`. -/
structure Agrees (r : Reader) (m : CfgSaid) : Prop where
  cur : r.cur = m.cur
  bad : r.bad = false
  goes : m.goesOn = true → ∃ s o v, r.cur = some s ∧ r.opt = some o ∧ m.values.getLast? = some (s, o, v)
  stops : m.goesOn = false → r.opt = none
  sects : ∀ s, (r.sections.get? s).isSome ↔ s ∈ m.sects ∧ s ≠ defaultSect
  curIn : ∀ s, m.cur = some s → s ∈ m.sects
  vals : ∀ s o, ((r.dictOf s).get? o).map (joinStr cs!"\n") = lastKey m.values s o
  ne : ∀ s o l, (r.dictOf s).get? o = some l → l ≠ []

theorem agrees_init : Agrees Reader.init CfgSaid.nothing where
  cur := rfl
  bad := rfl
  goes := fun h => by cases h
  stops := fun _ => rfl
  sects := fun s => by simp [Reader.init, CfgSaid.nothing, Dict.get?, Dict.empty]
  curIn := fun s h => by cases h
  vals := fun s o => by
    unfold Reader.dictOf Reader.init
    split <;> rfl
  ne := fun s o l h => by
    unfold Reader.dictOf Reader.init at h
    split at h <;> cases h

theorem put_cur (r : Reader) (s o : Str) (v : List Str) : (r.put s o v).cur = r.cur ∧ (r.put s o v).bad = r.bad ∧
    (r.put s o v).opt = r.opt := by
  unfold Reader.put
  split <;> exact ⟨rfl, rfl, rfl⟩

theorem dictOf_opt (r : Reader) (x : Option Str) (s : Str) : ({ r with opt := x } : Reader).dictOf s = r.dictOf s := rfl

theorem Agrees.add {r : Reader} {m : CfgSaid} (h : Agrees r m) {l : CfgLine} (hl : l.Ok) (ha : m.Allows l) :
    ∃ r', step r l.text = .ok r' ∧ Agrees r' (m.add l) := by
  cases l with
  | blank ws =>
    exact ⟨r, step_ignored (ignored_blank (fun c hc => (hl c hc).1)), h⟩
  | comment mk t => exact ⟨r, step_ignored (ignored_comment hl.1 t), h⟩
  | remark w t => exact ⟨r, step_ignored (ignored_remark hl.1 hl.2.1), h⟩
  | header n =>
    refine ⟨r.enter n, step_header hl.1 hl.2.1 r, ?_⟩
    have hc : (r.enter n).cur = some n ∧ (r.enter n).bad = r.bad ∧ (r.enter n).opt = none := by
      unfold Reader.enter; split <;> exact ⟨rfl, rfl, rfl⟩
    refine ⟨hc.1, hc.2.1.trans h.bad, (fun hg => by cases hg), (fun _ => hc.2.2), ?_, ?_, ?_, ?_⟩
    · intro s
      rw [enter_sections, h.sects]
      show _ ↔ s ∈ m.sects ++ [n] ∧ _
      rw [List.mem_append, List.mem_singleton]
      constructor
      · rintro (⟨a, b⟩ | ⟨rfl, b⟩)
        · exact ⟨Or.inl a, b⟩
        · exact ⟨Or.inr rfl, b⟩
      · rintro ⟨a | rfl, b⟩
        · exact Or.inl ⟨a, b⟩
        · exact Or.inr ⟨rfl, b⟩
    · intro s hs
      have : some n = some s := hs
      injection this with this
      subst this
      exact List.mem_append.2 (Or.inr (List.mem_singleton.2 rfl))
    · intro s o
      rw [enter_get]
      exact h.vals s o
    · intro s o l' hl'
      rw [enter_get] at hl'
      exact h.ne s o l' hl'
  | option n b1 sep b2 v b3 =>
    obtain ⟨hn, h1, hs, h2, hv, h3⟩ := hl
    cases hm : m.cur with
    | none => exact absurd hm ha
    | some s =>
    have hr : r.cur = some s := h.cur.trans hm
    refine ⟨_, step_option hn h1 hs h2 hv h3 hr, ?_⟩
    obtain ⟨p1, p2, p3⟩ := put_cur r s (lowerStr n) [meantValue v]
    have hadd : m.add (.option n b1 sep b2 v b3) =
        { m with goesOn := true, values := m.values ++ [(s, lowerStr n, meantValue v)] } := by
      show ({ m with goesOn := true, values := m.values ++ [(m.cur.getD [], smallLetters n, meantValue v)] } : CfgSaid) = _
      rw [hm]
      rfl
    rw [hadd]
    refine ⟨p1.trans h.cur, p2.trans h.bad, fun _ => ⟨s, lowerStr n, meantValue v, p1.trans hr, rfl, by simp⟩, (fun hg => by cases hg), ?_, h.curIn, ?_, ?_⟩
    · intro s'
      show ((r.put s (lowerStr n) [meantValue v]).sections.get? s').isSome ↔ _
      rw [put_sections, h.sects]
      constructor
      · rintro (h' | ⟨rfl, h'⟩)
        · exact h'
        · exact ⟨h.curIn _ hm, h'⟩
      · exact Or.inl
    · intro s' o'
      rw [dictOf_opt, put_get, lastKey_snoc]
      split
      · rfl
      · exact h.vals s' o'
    · intro s' o' l' hl'
      rw [dictOf_opt, put_get] at hl'
      split at hl'
      · injection hl' with hl'; subst hl'; simp
      · exact h.ne s' o' l' hl'
  | more i t b3 =>
    obtain ⟨h0, hi, ht, hv, h3⟩ := hl
    obtain ⟨s, o, v, g1, g2, g3⟩ := h.goes ha
    refine ⟨_, step_more h0 hi ht hv h3 g1 g2, ?_⟩
    obtain ⟨p1, p2, p3⟩ := put_cur r s o (((r.dictOf s).get? o).getD [] ++ [t])
    obtain ⟨init, hinit⟩ : ∃ init, m.values = init ++ [(s, o, v)] := ⟨m.values.dropLast, by
      have := List.dropLast_append_getLast? _ g3
      exact this.symm⟩
    have hadd : m.add (.more i t b3) = { m with values := init ++ [(s, o, v ++ '\n' :: t)] } := by
      show ({ m with values := m.values.dropLast ++
        (m.values.getLast?.map (fun x => (x.1, x.2.1, x.2.2 ++ '\n' :: t))).toList } : CfgSaid) = _
      rw [g3, hinit]
      simp
    have hold : ((r.dictOf s).get? o).map (joinStr cs!"\n") = some v := by
      rw [h.vals, hinit, lastKey_snoc, if_pos ⟨rfl, rfl⟩]
    rw [hadd]
    refine ⟨p1.trans h.cur, p2.trans h.bad, fun _ => ⟨s, o, _, p1.trans g1, p3.trans g2, by simp; rfl⟩, (fun hg => by rw [show m.goesOn = true from ha] at hg; cases hg), ?_, h.curIn, ?_, ?_⟩
    · intro s'
      rw [put_sections, h.sects]
      constructor
      · rintro (h' | ⟨rfl, h'⟩)
        · exact h'
        · exact ⟨h.curIn _ (h.cur ▸ g1), h'⟩
      · exact Or.inl
    · intro s' o'
      rw [put_get, lastKey_snoc]
      split
      · cases hd : (r.dictOf s).get? o with
        | none => rw [hd] at hold; cases hold
        | some l' =>
          rw [hd] at hold
          have hj : joinStr cs!"\n" l' = v := by simpa using hold
          show some (joinStr cs!"\n" (l' ++ [t])) = _
          rw [joinStr_snoc _ _ (h.ne _ _ _ hd), hj]
          simp
      · rename_i hne
        rw [h.vals, hinit, lastKey_snoc, if_neg hne]
    · intro s' o' l' hl'
      rw [put_get] at hl'
      split at hl'
      · injection hl' with hl'; subst hl'; simp
      · exact h.ne s' o' l' hl'

theorem text_no_newline {l : CfgLine} (h : l.Ok) : '\n' ∉ l.text := by
  cases l with
  | blank ws => exact fun hc => (h _ hc).2 rfl
  | comment mk t =>
    intro hc
    rcases List.mem_cons.1 hc with hc | hc
    · rcases h.1 with h' | h' <;> rw [h'] at hc <;> revert hc <;> decide
    · exact h.2 hc
  | remark w t =>
    intro hc
    rcases List.mem_append.1 hc with hc | hc
    · have hm : '\n'.toLower ∈ smallLetters w := List.mem_map.2 ⟨_, hc, rfl⟩
      rw [h.1] at hm
      revert hm; decide
    · exact h.2.2 hc
  | header n =>
    intro hc
    have : '\n' = '[' ∨ '\n' ∈ n ∨ '\n' = ']' := by simpa [CfgLine.text] using hc
    rcases this with h' | h' | h'
    · revert h'; decide
    · exact h.2.2 h'
    · revert h'; decide
  | option n b1 sep b2 v b3 =>
    obtain ⟨hn, h1, hs, h2, hv, h3⟩ := h
    intro hc
    have : '\n' ∈ n ∨ '\n' ∈ b1 ∨ '\n' = sep ∨ '\n' ∈ b2 ∨ '\n' ∈ v ∨ '\n' ∈ b3 := by simpa [CfgLine.text] using hc
    rcases this with h' | h' | h' | h' | h' | h'
    · have := (hn.word _ h').1; revert this; decide
    · exact blanks_nl h1 h'
    · rcases hs with rfl | rfl <;> revert h' <;> decide
    · exact blanks_nl h2 h'
    · exact hv.line h'
    · exact rest_nl h3 h'
  | more i t b3 =>
    obtain ⟨h0, hi, ht, hv, h3⟩ := h
    intro hc
    have : '\n' ∈ i ∨ '\n' ∈ t ∨ '\n' ∈ b3 := by simpa [CfgLine.text] using hc
    rcases this with h' | h' | h'
    · exact blanks_nl hi h'
    · exact hv.line h'
    · exact blanks_nl h3 h'

theorem step_text {r : Reader} {l : CfgLine} (h : l.Ok) : step r (l.text ++ ['\n']) = step r l.text := by
  by_cases hne : l.text = []
  · rw [hne]; rfl
  · exact step_newline r hne (text_no_newline h)

theorem Agrees.addAll : ∀ {ls : List CfgLine} {r : Reader} {m : CfgSaid}, Agrees r m → (∀ l ∈ ls, l.Ok) → m.AllowsAll ls →
    ∃ r', readLines r (ls.map (fun l => l.text ++ ['\n'])) = .ok r' ∧ Agrees r' (m.addAll ls) := by
  intro ls
  induction ls with
  | nil => intro r m h _ _; exact ⟨r, rfl, h⟩
  | cons l ls ih =>
    intro r m h hok ha
    obtain ⟨r1, h1, h2⟩ := h.add (hok l (by simp)) ha.1
    obtain ⟨r', h3, h4⟩ := ih h2 (fun x hx => hok x (by simp [hx])) ha.2
    refine ⟨r', ?_, h4⟩
    rw [List.map_cons]
    unfold readLines
    rw [step_text (hok l (by simp)), h1, ok_bind, h3]

theorem fileLines_cfg {ls : List CfgLine} (h : ∀ l ∈ ls, l.Ok) : fileLines (cfgText ls) = ls.map (fun l => l.text ++ ['\n']) := by
  have := fileLines_flatten (ls := ls.map CfgLine.text) (by
    intro t ht
    obtain ⟨l, hl, rfl⟩ := List.mem_map.1 ht
    exact text_no_newline (h l hl))
  rw [List.map_map] at this
  exact this

theorem Agrees.lookup {r : Reader} {m : CfgSaid} (h : Agrees r m) {s : Str} (hs : s ≠ cs!"DEFAULT") (o : Str) :
    r.lookup s o = m.value s o := by
  have hd : s ≠ defaultSect := hs
  unfold Reader.lookup CfgSaid.value
  have hsec := h.sects s
  cases hg : r.sections.get? s with
  | none =>
    rw [hg] at hsec
    rw [if_neg]
    intro hm
    have := hsec.2 ⟨hm, hd⟩
    cases this
  | some d =>
    rw [hg] at hsec
    rw [if_pos (hsec.1 rfl).1]
    have h1 : r.dictOf s = d := by unfold Reader.dictOf; rw [if_neg hd, hg]; rfl
    have h2 : r.dictOf defaultSect = r.defaults := if_pos rfl
    have v1 := h.vals s (smallLetters o)
    have v2 := h.vals defaultSect (smallLetters o)
    rw [h1] at v1
    rw [h2] at v2
    show ((d.get? (smallLetters o)).or (r.defaults.get? (smallLetters o))).map (joinStr cs!"\n") = (lastKey m.values s (smallLetters o)).or
      (lastKey m.values defaultSect (smallLetters o))
    rw [← v1, ← v2]
    cases d.get? (smallLetters o) <;> rfl

end Cfg

open Cfg

/-- **C139** Every file made of comment lines, blank lines, section headers, option lines (inside a section) and indented
lines (after an option) is accepted, and an option of a section has the last value given to it there (names in large or
small letters, indented lines added with a newline), else the last value given to it in `[DEFAULT]`; options of other sections
do not matter. -/
theorem C139_file (ls : List CfgLine) (hok : ∀ l ∈ ls, l.Ok) (ha : CfgSaid.nothing.AllowsAll ls) :
    ∃ g, Cfg.parse (cfgText ls) = .ok g ∧
      ∀ s o, s ≠ cs!"DEFAULT" → g s o = (CfgSaid.nothing.addAll ls).value s o := by
  obtain ⟨r, h1, h2⟩ := agrees_init.addAll hok ha
  refine ⟨r.lookup, ?_, fun s o hs => h2.lookup hs o⟩
  unfold Cfg.parse
  rw [fileLines_cfg hok, h1, ok_bind, h2.bad]
  rfl

namespace Cfg

theorem readLines_append (ls ms : List Str) : ∀ r, readLines r (ls ++ ms) = (readLines r ls).bind (fun r' => readLines r' ms) := by
  induction ls with
  | nil => intro r; rfl
  | cons l ls ih =>
    intro r
    rw [List.cons_append]
    show (step r l >>= fun r' => readLines r' (ls ++ ms)) = (step r l >>= fun r' => readLines r' ls).bind _
    cases h : step r l with
    | error e => rfl
    | ok r' => rw [ok_bind, ok_bind, ih]

theorem readLines_newline (t : Str) : ∀ (cur : Str) (r : Reader), '\n' ∉ cur →
    readLines r (linesAux cur (t ++ ['\n'])) = readLines r (linesAux cur t) := by
  induction t with
  | nil =>
    intro cur r hc
    by_cases h0 : cur = []
    · subst h0; rfl
    · have h1 : linesAux cur ([] ++ ['\n']) = [cur ++ ['\n']] := by simp [linesAux]
      have h2 : linesAux cur [] = [cur] := by simp [linesAux, h0]
      rw [h1, h2]
      unfold readLines
      rw [step_newline r h0 hc]
  | cons c cs ih =>
    intro cur r hc
    rw [List.cons_append]
    unfold linesAux
    by_cases h : c = '\n'
    · rw [if_pos h, if_pos h]
      unfold readLines
      cases step r (cur ++ [c]) with
      | error e => rfl
      | ok r' => rw [ok_bind, ok_bind, ih [] r' (by simp)]
    · rw [if_neg h, if_neg h]
      exact ih _ _ (by
        rw [List.mem_append, List.mem_singleton]
        rintro (h' | h')
        · exact hc h'
        · exact h h'.symm)

theorem linesAux_append (a b : Str) : ∀ cur, linesAux cur (a ++ '\n' :: b) = linesAux cur (a ++ ['\n']) ++ linesAux [] b := by
  induction a with
  | nil => intro cur; simp [linesAux]
  | cons c cs ih =>
    intro cur
    show (if c = '\n' then (cur ++ [c]) :: linesAux [] (cs ++ '\n' :: b) else linesAux (cur ++ [c]) (cs ++ '\n' :: b)) =
      (if c = '\n' then (cur ++ [c]) :: linesAux [] (cs ++ ['\n']) else linesAux (cur ++ [c]) (cs ++ ['\n'])) ++ linesAux [] b
    split
    · rw [ih, List.cons_append]
    · rw [ih]

theorem step_bad {r r' : Reader} {l : Str} (h : r.bad = true) (hs : step r l = .ok r') : r'.bad = true := by
  unfold step at hs
  split at hs
  · injection hs with hs; subst hs; exact h
  · split at hs
    · injection hs with hs; subst hs; exact (put_cur _ _ _ _).2.1.trans h
    · split at hs
      · injection hs with hs; subst hs
        unfold Reader.enter; split <;> exact h
      · split at hs
        · cases hs
        · split at hs
          · injection hs with hs; subst hs; exact (put_cur _ _ _ _).2.1.trans h
          · injection hs with hs; subst hs; rfl

theorem step_error {r : Reader} {l : Str} {e : PyErr} (h : step r l = .error e) : e = .parsingError := by
  unfold step at h
  split at h
  · cases h
  · split at h
    · cases h
    · split at h
      · cases h
      · split at h
        · injection h with h; exact h.symm
        · split at h <;> cases h

theorem readLines_error (ls : List Str) : ∀ {r : Reader} {e : PyErr}, readLines r ls = .error e → e = .parsingError := by
  induction ls with
  | nil => intro r e h; cases h
  | cons l ls ih =>
    intro r e h
    unfold readLines at h
    cases hs : step r l with
    | error e' => rw [hs] at h; injection h with h; exact h ▸ step_error hs
    | ok r' => rw [hs, ok_bind] at h; exact ih h

theorem readLines_bad (ls : List Str) : ∀ {r r' : Reader}, r.bad = true → readLines r ls = .ok r' → r'.bad = true := by
  induction ls with
  | nil => intro r r' hb h; injection h with h; exact h ▸ hb
  | cons l ls ih =>
    intro r r' hb h
    unfold readLines at h
    cases hs : step r l with
    | error e' => rw [hs] at h; cases h
    | ok r1 => rw [hs, ok_bind] at h; exact ih (step_bad hb hs) h

/-- What the lines before a given one lead to. -/
theorem parse_prefix {ls : List CfgLine} (hok : ∀ l ∈ ls, l.Ok) (ha : CfgSaid.nothing.AllowsAll ls) (rest : Str) :
    ∃ r, Agrees r (CfgSaid.nothing.addAll ls) ∧ readLines Reader.init (fileLines (cfgText ls ++ rest)) = readLines r (fileLines rest) := by
  obtain ⟨r, h1, h2⟩ := agrees_init.addAll hok ha
  refine ⟨r, h2, ?_⟩
  have : fileLines (cfgText ls ++ rest) = ls.map (fun l => l.text ++ ['\n']) ++ fileLines rest := by
    clear h1 h2 ha
    induction ls with
    | nil => rfl
    | cons l ls ih =>
      have hl := text_no_newline (hok l (by simp))
      have e : cfgText (l :: ls) ++ rest = l.text ++ '\n' :: (cfgText ls ++ rest) := by simp [cfgText]
      rw [e, fileLines_cons hl, ih (fun x hx => hok x (by simp [hx]))]
      rfl
  rw [this, readLines_append, h1]
  rfl

end Cfg

/-- **C139** It does not matter whether the file ends with a newline. -/
theorem C139_final_newline (txt : Str) : Cfg.parse (txt ++ ['\n']) = Cfg.parse txt := by
  unfold Cfg.parse fileLines
  rw [readLines_newline txt [] _ (by simp)]

/-- **C139** In any file whatever, well-formed or not, a comment line or blank line may be inserted before any line, or removed. -/
theorem C139_ignored (a b : Str) (ha : a = [] ∨ ∃ a', a = a' ++ ['\n']) (l : CfgLine) (hl : l.Ok)
    (hk : (∃ ws, l = .blank ws) ∨ (∃ m t, l = .comment m t) ∨ ∃ w t, l = .remark w t) : Cfg.parse (a ++ l.text ++ '\n' :: b) = Cfg.parse (a ++ b) := by
  have hi : Cfg.ignored l.text = true := by
    rcases hk with ⟨ws, rfl⟩ | ⟨m, t, rfl⟩ | ⟨w, t, rfl⟩
    · exact ignored_blank (fun c hc => (hl c hc).1)
    · exact ignored_comment hl.1 t
    · exact ignored_remark hl.1 hl.2.1
  have hs : ∀ r, step r (l.text ++ ['\n']) = .ok r := fun r => (step_text hl).trans (step_ignored hi)
  have hx : ∀ r, readLines r (fileLines (l.text ++ '\n' :: b)) = readLines r (fileLines b) := by
    intro r
    rw [fileLines_cons (text_no_newline hl)]
    conv_lhs => unfold readLines
    rw [hs, ok_bind]
  unfold Cfg.parse
  rcases ha with rfl | ⟨a', rfl⟩
  · rw [List.nil_append, hx, List.nil_append]
  · have e1 : a' ++ ['\n'] ++ l.text ++ '\n' :: b = a' ++ '\n' :: (l.text ++ '\n' :: b) := by simp
    have e2 : a' ++ ['\n'] ++ b = a' ++ '\n' :: b := by simp
    have hl2 : ∀ x, fileLines (a' ++ '\n' :: x) = fileLines (a' ++ ['\n']) ++ fileLines x := fun x => linesAux_append a' x []
    rw [e1, e2, hl2 (l.text ++ '\n' :: b), hl2 b, readLines_append (fileLines (a' ++ ['\n'])) (fileLines b),
      readLines_append (fileLines (a' ++ ['\n'])) (fileLines (l.text ++ '\n' :: b))]
    cases readLines Reader.init (fileLines (a' ++ ['\n'])) with
    | error e => rfl
    | ok r =>
      show ((readLines r _) >>= _) = ((readLines r _) >>= _)
      rw [hx]

/-- **C139** An option before the first section header is a parsing error, whatever follows. -/
theorem C139_no_section (ls : List CfgLine) (hok : ∀ l ∈ ls, l.Ok) (ha : CfgSaid.nothing.AllowsAll ls)
    (hc : (CfgSaid.nothing.addAll ls).cur = none) (n b1 b2 v b3 : Str) (sep : Char) (hl : (CfgLine.option n b1 sep b2 v b3).Ok)
    (rest : Str) : Cfg.parse (cfgText ls ++ (CfgLine.option n b1 sep b2 v b3).text ++ '\n' :: rest) = .error .parsingError := by
  obtain ⟨r, h1, h2⟩ := parse_prefix hok ha ((CfgLine.option n b1 sep b2 v b3).text ++ '\n' :: rest)
  unfold Cfg.parse
  rw [List.append_assoc, h2, fileLines_cons (text_no_newline hl)]
  unfold readLines
  rw [step_text hl]
  have : step r (CfgLine.option n b1 sep b2 v b3).text = .error .parsingError := by
    have hi : ignored (CfgLine.option n b1 sep b2 v b3).text = false := by
      have := ignored_option (t := b2 ++ v ++ b3) hl.1 hl.2.1 hl.2.2.1
      simpa [CfgLine.text] using this
    obtain ⟨c, n', rfl⟩ : ∃ c n', n = c :: n' := by
      cases n with
      | nil => exact absurd rfl hl.1.nonempty
      | cons c n' => exact ⟨c, n', rfl⟩
    have hsec : sectHeader (CfgLine.option (c :: n') b1 sep b2 v b3).text = none := by
      have h3 := hl.1.start.2.2
      show sectHeader (c :: _) = none
      unfold sectHeader
      split
      · rename_i heq
        injection heq with heq
        exact absurd (congrArg some heq) h3
      · rfl
    unfold step
    rw [hi, hsec, h1.cur, hc]
    simp
  rw [this]
  rfl

/-- **C139** A line that is neither blank nor a comment, a header, an option line or indented is a parsing error, whatever
follows. -/
theorem C139_junk_line (ls : List CfgLine) (hok : ∀ l ∈ ls, l.Ok) (ha : CfgSaid.nothing.AllowsAll ls) (c : Char) (t : Str)
    (hc : isWs c = false ∧ c ≠ '#' ∧ c ≠ ';') (hrem : ∀ w, (split (c :: t)).head? = some w → smallLetters w ≠ cs!"rem")
    (hhead : c = '[' → ']' ∉ t ∨ t.head? = some ']') (ht : ∀ x ∈ c :: t, x ≠ ':' ∧ x ≠ '=' ∧ x ≠ '\n') (rest : Str) :
    Cfg.parse (cfgText ls ++ c :: t ++ '\n' :: rest) = .error .parsingError := by
  obtain ⟨r, h1, h2⟩ := parse_prefix hok ha (c :: t ++ '\n' :: rest)
  have hn : '\n' ∉ c :: t := fun h => (ht _ h).2.2 rfl
  have hstep : step r (c :: t) = .error .parsingError ∨ ∃ r', step r (c :: t) = .ok r' ∧ r'.bad = true := by
    have hr : (split (c :: t)).head?.map lowerStr ≠ some cs!"rem" := by
      intro h
      cases hs : (split (c :: t)).head? with
      | none => rw [hs] at h; cases h
      | some w =>
        rw [hs] at h
        injection h with h
        exact hrem w hs h
    have hi : ignored (c :: t) = false := by
      unfold ignored
      rw [decide_eq_false (strip_ne_nil (List.mem_cons_self ..) hc.1)]
      rw [decide_eq_false hr]
      simp [hc.2.1, hc.2.2]
    have hind : indented (c :: t) = false := by simp [indented, hc.1]
    have hsec : sectHeader (c :: t) = none := by
      unfold sectHeader
      split
      · rename_i heq
        injection heq with heq heq'
        subst heq'
        rw [if_neg]
        rintro ⟨g1, g2⟩
        rcases hhead heq with g | g
        · exact g g2
        · apply g1
          cases t with
          | nil => cases g
          | cons x xs =>
            have : x = ']' := by simpa using g
            subst this
            rfl
      · rfl
    have hopt : optLine (c :: t) = none := by
      have hd : (c :: t).dropWhile (fun c => decide (c ≠ ':' ∧ c ≠ '=')) = [] := by
        rw [List.dropWhile_eq_nil_iff]
        intro x hx
        simpa using ⟨(ht x hx).1, (ht x hx).2.1⟩
      unfold optLine
      rw [hind, hd]
      simp only [Bool.false_eq_true, if_false]
      split <;> first | rfl | simp_all
    unfold step
    rw [hi, hind, hsec, hopt]
    cases hcur : r.cur with
    | none => left; simp
    | some s => right; exact ⟨{ r with bad := true }, by simp [hcur], rfl⟩
  unfold Cfg.parse
  rw [List.append_assoc, h2, fileLines_cons hn]
  unfold readLines
  rw [step_newline r (by simp) hn]
  rcases hstep with h | ⟨r', h, hb⟩
  · rw [h]; rfl
  · rw [h, ok_bind]
    cases hr : readLines r' (fileLines rest) with
    | error e => rw [readLines_error _ hr]; rfl
    | ok r'' => rw [ok_bind, readLines_bad _ hb hr]; rfl

/-- **C139** An indented line before the first option of its section (or of the file) is a parsing error, whatever follows. -/
theorem C139_indented_first (ls : List CfgLine) (hok : ∀ l ∈ ls, l.Ok) (ha : CfgSaid.nothing.AllowsAll ls)
    (hg : (CfgSaid.nothing.addAll ls).goesOn = false) (i t b3 : Str) (hl : (CfgLine.more i t b3).Ok) (rest : Str) :
    Cfg.parse (cfgText ls ++ (CfgLine.more i t b3).text ++ '\n' :: rest) = .error .parsingError := by
  obtain ⟨r, h1, h2⟩ := parse_prefix hok ha ((CfgLine.more i t b3).text ++ '\n' :: rest)
  unfold Cfg.parse
  rw [List.append_assoc, h2, fileLines_cons (text_no_newline hl)]
  unfold readLines
  rw [step_text hl, show (CfgLine.more i t b3).text = i ++ t ++ b3 from rfl,
    step_indented hl.1 hl.2.1 hl.2.2.1 hl.2.2.2.1 (h1.stops hg)]
  split
  · rfl
  · rw [ok_bind]
    cases hr : readLines { r with bad := true } (fileLines rest) with
    | error e => rw [readLines_error _ hr]; rfl
    | ok r'' => rw [ok_bind, readLines_bad _ rfl hr]; rfl

/-- **C139** `ParsingError` is the only way a configuration file is refused. -/
theorem C139_only_error (txt : Str) (e : PyErr) (h : Cfg.parse txt = .error e) : e = .parsingError := by
  unfold Cfg.parse at h
  cases hr : readLines Reader.init (fileLines txt) with
  | error e' =>
    rw [hr] at h
    injection h with h
    exact h ▸ readLines_error _ hr
  | ok r =>
    rw [hr, ok_bind] at h
    split at h
    · injection h with h; exact h.symm
    · cases h

/-! ### Configuration files and command lines -/

/-- No row of a script that its documentation does not describe is looked up under a documented name, and documented names
are in small letters. -/
theorem documented_names : ∀ p ∈ documentedScripts,
    (∀ o ∈ p.2, smallLetters o.long = o.long ∧ CleanName o.long) ∧ p.1.sect ≠ cs!"DEFAULT" ∧ (CfgLine.header p.1.sect).Ok ∧
    ∀ r ∈ p.1.rows, (∀ o ∈ p.2, o.var ≠ r.var) → ∀ o ∈ p.2, o.long ≠ smallLetters r.cfg := by
  have h1 : ∀ p ∈ documentedScripts, (∀ o ∈ p.2, smallLetters o.long = o.long ∧ o.long ≠ [] ∧
      (∀ c ∈ o.long, isWs c = false ∧ c ≠ ':' ∧ c ≠ '=') ∧
      (o.long.head? ≠ some '#' ∧ o.long.head? ≠ some ';' ∧ o.long.head? ≠ some '[') ∧ smallLetters o.long ≠ cs!"rem") ∧
      p.1.sect ≠ cs!"DEFAULT" ∧ (p.1.sect ≠ [] ∧ ']' ∉ p.1.sect ∧ '\n' ∉ p.1.sect) ∧
      ∀ r ∈ p.1.rows, (∀ o ∈ p.2, o.var ≠ r.var) → ∀ o ∈ p.2, o.long ≠ smallLetters r.cfg := by
    decide +kernel
  intro p hp
  obtain ⟨a, b, c, d⟩ := h1 p hp
  exact ⟨fun o ho => ⟨(a o ho).1, (a o ho).2.1, (a o ho).2.2.1, (a o ho).2.2.2.1, (a o ho).2.2.2.2⟩, b, c, d⟩

theorem addAll_options (s : Str) : ∀ (gs : List Given) (m : CfgSaid), (∀ g ∈ gs, g.value ≠ cs!"\"\"") → m.cur = some s →
    (m.AllowsAll (gs.map (fun g => CfgLine.option g.opt.long [] '=' [] g.value []))) ∧
    (m.addAll (gs.map (fun g => CfgLine.option g.opt.long [] '=' [] g.value []))).sects = m.sects ∧
    (m.addAll (gs.map (fun g => CfgLine.option g.opt.long [] '=' [] g.value []))).values =
      m.values ++ gs.map (fun g => (s, smallLetters g.opt.long, g.value)) := by
  intro gs
  induction gs with
  | nil => intro m _ hm; exact ⟨trivial, rfl, by simp [CfgSaid.addAll]⟩
  | cons g gs ih =>
    intro m hq hm
    obtain ⟨h1, h2, h3⟩ := ih (m.add (.option g.opt.long [] '=' [] g.value [])) (fun x hx => hq x (by simp [hx])) hm
    refine ⟨⟨by show m.cur ≠ none; rw [hm]; simp, h1⟩, h2, ?_⟩
    show ((m.add _).addAll _).values = _
    rw [h3]
    show (m.values ++ [(m.cur.getD [], _, _)]) ++ _ = _
    rw [hm, show meantValue g.value = g.value from if_neg (hq g (by simp))]
    simp

/-- What the file made of options says. -/
theorem cfgOf_value {s : Str} (hs : s ≠ cs!"DEFAULT") (gs : List Given) (hq : ∀ g ∈ gs, g.value ≠ cs!"\"\"") (o : Str) :
    CfgSaid.nothing.AllowsAll (cfgOf s gs) ∧ (CfgSaid.nothing.addAll (cfgOf s gs)).value s o =
      ((gs.filter (fun g => decide (smallLetters g.opt.long = smallLetters o))).getLast?).map Given.value := by
  obtain ⟨h1, h2, h3⟩ := addAll_options s gs (CfgSaid.nothing.add (.header s)) hq rfl
  refine ⟨⟨trivial, h1⟩, ?_⟩
  show (((CfgSaid.nothing.add (.header s)).addAll _)).value s o = _
  unfold CfgSaid.value
  rw [h2, if_pos (show s ∈ (CfgSaid.nothing.add (CfgLine.header s)).sects from List.mem_append.2 (Or.inr (List.mem_singleton.2 rfl)))]
  have e1 : ∀ t, CfgSaid.last ((CfgSaid.nothing.add (.header s)).addAll
      (gs.map (fun g => CfgLine.option g.opt.long [] '=' [] g.value []))) t o =
      (((gs.filter (fun g => decide (s = t ∧ smallLetters g.opt.long = smallLetters o))).getLast?).map Given.value) := by
    intro t
    unfold CfgSaid.last
    rw [h3]
    show (((([] : List (Str × Str × Str)) ++ _).filter _).getLast?).map _ = _
    rw [List.nil_append, List.filter_map, List.getLast?_map, Option.map_map]
    rfl
  rw [e1, e1]
  have e2 : gs.filter (fun g => decide (s = cs!"DEFAULT" ∧ smallLetters g.opt.long = smallLetters o)) = [] := by
    rw [List.filter_eq_nil_iff]
    intro g _
    simp [hs]
  rw [e2]
  simp

/-- **C139** Options may be moved from the command line to a configuration file: the file with one line `name=value` for each
of them, in the section of the script, followed on the command line by further options, gives all variables of the script the
values that they have when all options are on the command line, those of the file first. -/
theorem C139_as_command_line {c : Cli} {docs : List DocOpt} (hc : (c, docs) ∈ documentedScripts) (fs : Fs)
    (gs hs : List Given) (hg : ∀ g ∈ gs, g.Valid docs) (hv : ∀ g ∈ gs, CleanValue g.value ∧ g.value ≠ cs!"\"\"") (hh : ∀ g ∈ hs, g.Valid docs)
    (f : Str) (hf : f.head? ≠ some '-') (hr : fs.read f = .ok (cfgText (cfgOf c.sect gs))) :
    c.parseArgs Cfg.parse fs ((hs.map Given.render).flatten ++ [f]) =
      c.parseArgs Cfg.parse fs (((gs ++ hs).map Given.render).flatten) := by
  have hok := documentedScripts_ok _ hc
  obtain ⟨n1, n2, n3, n4⟩ := documented_names _ hc
  obtain ⟨ha, -⟩ := cfgOf_value n2 gs (fun g hg' => (hv g hg').2) []
  obtain ⟨g, hp, hval⟩ := C139_file (cfgOf c.sect gs) (by
    intro l hl
    rcases List.mem_cons.1 hl with rfl | hl
    · exact n3
    · obtain ⟨g, hg', rfl⟩ := List.mem_map.1 hl
      have hb : Blanks [] := fun c hc => by cases hc
      exact ⟨(n1 _ (hg g hg').1).2, hb, Or.inl rfl, hb, (hv g hg').1, Or.inl ⟨hb, fun _ => rfl⟩⟩)
    ha
  have hval' : ∀ o, g c.sect o = ((gs.filter (fun g => decide (smallLetters g.opt.long = smallLetters o))).getLast?).map Given.value :=
    fun o => (hval _ o n2).trans (cfgOf_value n2 gs (fun g hg' => (hv g hg').2) o).2
  have hfile : Positional [f] := by
    intro a ha'
    have : some f = some a := ha'
    injection this with this
    exact this ▸ hf
  obtain ⟨st1, s1, w1⟩ := parse_values hok Cfg.parse fs hs hh [f] hfile (g c.sect) (Or.inl ⟨_, g, hr, hp, rfl⟩)
  obtain ⟨st2, s2, w2⟩ := parse_values hok Cfg.parse fs (gs ++ hs) (by
    intro x hx
    rcases List.mem_append.1 hx with hx | hx
    · exact hg x hx
    · exact hh x hx) [] (fun a ha' => by cases ha') (fun _ => none) rfl
  rw [List.append_nil] at s2
  rw [s1, s2]
  congr 1
  funext x
  by_cases hx : ∃ o ∈ docs, o.var = x
  · obtain ⟨o, ho, rfl⟩ := hx
    rw [w1 o ho, w2 o ho]
    unfold wanted
    rw [lastGiven_append]
    have : g c.sect o.long = lastGiven gs o := by
      rw [hval']
      unfold lastGiven
      congr 2
      refine List.filter_congr fun t ht => ?_
      rw [(n1 _ (hg t ht).1).1, (n1 _ ho).1]
    rw [this]
    cases lastGiven hs o <;> cases lastGiven gs o <;> rfl
  · have hx' : ∀ o ∈ docs, o.var ≠ x := fun o ho h => hx ⟨o, ho, h⟩
    have i1 : c.parseArgs Cfg.parse fs ((hs.map Given.render).flatten ++ [f]) = c.optLoop (hs.map Given.pair) (c.fromConfig g) := by
      unfold Cli.parseArgs
      rw [getopt_givens hok (getopt_positional hfile) hh]
      simp [Cli.initial, hr, hp]
      rfl
    have i2 : c.parseArgs Cfg.parse fs (((gs ++ hs).map Given.render).flatten) = c.optLoop ((gs ++ hs).map Given.pair) c.defaults := by
      unfold Cli.parseArgs
      have := getopt_givens (args := []) hok (getopt_positional (short := c.short) (longs := c.longs) (tail := []) (fun a h => by cases h))
        (gs := gs ++ hs) (by
          intro x hx
          rcases List.mem_append.1 hx with hx | hx
          · exact hg x hx
          · exact hh x hx)
      rw [List.append_nil] at this
      rw [this]
      rfl
    rw [i1] at s1
    rw [i2] at s2
    rw [optLoop_other hok hx' hh s1, optLoop_other hok hx' (by
      intro y hy
      rcases List.mem_append.1 hy with hy | hy
      · exact hg y hy
      · exact hh y hy) s2]
    unfold Cli.fromConfig Cli.defaults
    cases hfind : c.rows.find? (fun r => decide (r.var = x)) with
    | none => rfl
    | some r =>
      have hrv : r.var = x := by simpa using List.find?_some hfind
      have hnone : g c.sect r.cfg = none := by
        rw [hval']
        have : gs.filter (fun g => decide (smallLetters g.opt.long = smallLetters r.cfg)) = [] := by
          rw [List.filter_eq_nil_iff]
          intro y hy
          have hd := n4 r (List.mem_of_find?_eq_some hfind) (fun o ho => hrv ▸ hx' o ho) _ (hg y hy).1
          rw [(n1 _ (hg y hy).1).1]
          simpa using hd
        rw [this]
        rfl
      simp only [hnone]

/-- **C139** The scripts themselves, with the standard reader of configuration files: each has the same outcome, whether
options are on the command line or in a configuration file. -/
theorem C139_scripts (L : Lib) (hL : L.parseCfg = Cfg.parse) (fs : Fs) {c : Cli} {docs : List DocOpt}
    (hc : (c, docs) ∈ documentedScripts)
    (gs hs : List Given) (hg : ∀ g ∈ gs, g.Valid docs) (hv : ∀ g ∈ gs, CleanValue g.value ∧ g.value ≠ cs!"\"\"") (hh : ∀ g ∈ hs, g.Valid docs)
    (f : Str) (hf : f.head? ≠ some '-') (hr : fs.read f = .ok (cfgText (cfgOf c.sect gs))) :
    (c = cliCore → mainCore L fs ((hs.map Given.render).flatten ++ [f]) =
      mainCore L fs ((gs ++ hs).map Given.render).flatten) ∧
    (c = cliPeriph → mainPeriph L fs ((hs.map Given.render).flatten ++ [f]) =
      mainPeriph L fs ((gs ++ hs).map Given.render).flatten) ∧
    (c = cliTrain → mainTrain L fs ((hs.map Given.render).flatten ++ [f]) =
      mainTrain L fs ((gs ++ hs).map Given.render).flatten) ∧
    (c = cliApply → mainApply L fs ((hs.map Given.render).flatten ++ [f]) =
      mainApply L fs ((gs ++ hs).map Given.render).flatten) ∧
    (c = cliSims → mainSims L fs ((hs.map Given.render).flatten ++ [f]) =
      mainSims L fs ((gs ++ hs).map Given.render).flatten) ∧
    (c = cliNeigh → mainNeigh L fs ((hs.map Given.render).flatten ++ [f]) =
      mainNeigh L fs ((gs ++ hs).map Given.render).flatten) ∧
    (c = cliEval → mainEval L fs ((hs.map Given.render).flatten ++ [f]) =
      mainEval L fs ((gs ++ hs).map Given.render).flatten) := by
  have key := C139_as_command_line hc fs gs hs hg hv hh f hf hr
  rw [← hL] at key
  refine ⟨?_, ?_, ?_, ?_, ?_, ?_, ?_⟩ <;> rintro rfl
  · unfold mainCore; rw [key]
  · unfold mainPeriph; rw [key]
  · unfold mainTrain; rw [key]
  · unfold mainApply; rw [key]
  · unfold mainSims; rw [key]
  · unfold mainNeigh; rw [key]
  · unfold mainEval; rw [key]

/-- **C139** A configuration file that cannot be parsed stops the script with that error, whatever options are given. -/
theorem C139_unparsable {c : Cli} {docs : List DocOpt} (hc : (c, docs) ∈ documentedScripts) (fs : Fs)
    (hs : List Given) (hh : ∀ g ∈ hs, g.Valid docs) (f : Str) (hf : f.head? ≠ some '-') (txt : Str) (e : PyErr)
    (hr : fs.read f = .ok txt) (hp : Cfg.parse txt = .error e) :
    c.parseArgs Cfg.parse fs ((hs.map Given.render).flatten ++ [f]) = .error (.raised .parsingError) := by
  have hok := documentedScripts_ok _ hc
  have hfile : Positional [f] := by
    intro a ha'
    have : some f = some a := ha'
    injection this with this
    exact this ▸ hf
  unfold Cli.parseArgs
  rw [getopt_givens hok (getopt_positional hfile) hh]
  simp [Cli.initial, hr, hp, C139_only_error txt e hp]
  rfl

/-- **C139** Every variable of a script that is given a configuration file: the last occurrence of its option on the command
line, else what the file says, else the documented default. -/
theorem C139_values {c : Cli} {docs : List DocOpt} (hc : (c, docs) ∈ documentedScripts) (fs : Fs)
    (hs : List Given) (hh : ∀ g ∈ hs, g.Valid docs) (f : Str) (hf : f.head? ≠ some '-')
    (ls : List CfgLine) (hok : ∀ l ∈ ls, l.Ok) (ha : CfgSaid.nothing.AllowsAll ls) (hr : fs.read f = .ok (cfgText ls)) :
    ∃ st, c.parseArgs Cfg.parse fs ((hs.map Given.render).flatten ++ [f]) = .ok st ∧
      ∀ o ∈ docs, st o.var = wanted hs ((CfgSaid.nothing.addAll ls).value c.sect) o := by
  obtain ⟨g, h1, h2⟩ := C139_file ls hok ha
  have hg : g c.sect = (CfgSaid.nothing.addAll ls).value c.sect := funext fun o => h2 _ o (documented_names _ hc).2.1
  refine parse_values (documentedScripts_ok _ hc) Cfg.parse fs hs hh [f] ?_ _ (Or.inl ⟨_, g, hr, h1, hg.symm⟩)
  intro a ha'
  have : some f = some a := ha'
  injection this with this
  exact this ▸ hf

/-! ### Concrete cases -/

/-- A sufficient condition for values. -/
theorem clean_value {v : Str} (h : (∀ c ∈ v, isWs c = false ∧ c ≠ ';' ∧ c ≠ '%')) : CleanValue v where
  line := fun hn => by have := (h _ hn).1; revert this; decide
  first := fun c hc => (h c (List.mem_of_mem_head? hc)).1
  last := fun c hc => (h c (List.mem_of_mem_getLast? hc)).1
  semicolon := fun a b _ hv => absurd rfl (h ';' (by simp [hv])).2.1
  percent := fun a b hv => absurd rfl (h '%' (by simp [hv])).2.2

/-- A value that begins with a semicolon. -/
theorem clean_semicolon {v : Str} (h : ∀ c ∈ v, c ≠ '\n' ∧ c ≠ '%') (hl : ∀ c ∈ (';' :: v).getLast?, isWs c = false) :
    CleanValue (';' :: v) where
  line := fun hn => by
    rcases List.mem_cons.1 hn with h0 | h0
    · revert h0; decide
    · exact (h _ h0).1 rfl
  first := fun c hc => by
    have : some ';' = some c := hc
    injection this with this
    subst this
    decide
  last := fun c hc => hl c hc
  semicolon := fun a b ha hv => by
    left
    cases a with
    | nil => rfl
    | cons x xs =>
      injection hv with h1 h2
      exact absurd (by rw [← h1]; simp) ha
  percent := fun a b hv => by
    cases a with
    | nil => injection hv with h1 h2; revert h1; decide
    | cons x xs =>
      injection hv with h1 h2
      exact (h '%' (by rw [h2]; simp)).2 rfl

/-- The beginning of `src/examples/data/in/config2.cfg`, with an upper-case name, a second value, defaults, a list over two
lines and the section of another script added. -/
def exCfg : List CfgLine := [
  .header cs!"DEFAULT",
  .option cs!"log" [] '=' [] cs!"all.log" [],
  .header cs!"build_core_space",
  .blank [],
  .comment '#' cs!"input file",
  .option cs!"input" [] '=' [] cs!"../examples/data/in/ex01" cs!"  ; old",
  .remark cs!"Rem" cs!" the next one is empty",
  .option cs!"gz" [] '=' [] cs!"\"\"" [],
  .option cs!"Weighting" cs!" " ':' cs!"  " cs!"ppmi," cs!" ",
  .comment ';' cs!" more",
  .more cs!"    " cs!"plog" [],
  .header cs!"compute_neighbours",
  .option cs!"input" [] '=' [] cs!"words.txt" [],
  .option cs!"output" [] '=' cs!" " cs!";a ;b" [],
  .header cs!"build_core_space",
  .option cs!"INPUT" [] '=' cs!" " cs!"ex02" cs!"\t"]

theorem exCfg_ok : ∀ l ∈ exCfg, l.Ok := by
  intro l hl
  have hb : ∀ b ∈ [cs!"", cs!" ", cs!"  ", cs!"    ", cs!"\t"], Blanks b := by
    unfold Blanks; decide
  have hv : ∀ v ∈ [cs!"all.log", cs!"../examples/data/in/ex01", cs!"ppmi,", cs!"plog", cs!"words.txt", cs!"ex02", cs!"\"\""], CleanValue v :=
    fun v hv => clean_value (by revert v; decide)
  have hn : ∀ n ∈ [cs!"log", cs!"input", cs!"output", cs!"gz", cs!"Weighting", cs!"INPUT"], CleanName n := by
    intro n hn
    have : ∀ n ∈ [cs!"log", cs!"input", cs!"output", cs!"gz", cs!"Weighting", cs!"INPUT"], n ≠ [] ∧ (∀ c ∈ n, isWs c = false ∧ c ≠ ':' ∧ c ≠ '=') ∧
      (n.head? ≠ some '#' ∧ n.head? ≠ some ';' ∧ n.head? ≠ some '[') ∧ smallLetters n ≠ cs!"rem" := by decide
    obtain ⟨a, b, c, d⟩ := this n hn
    exact ⟨a, b, c, d⟩
  simp only [exCfg, List.mem_cons, List.not_mem_nil, or_false] at hl
  rcases hl with rfl | rfl | rfl | rfl | rfl | rfl | rfl | rfl | rfl | rfl | rfl | rfl | rfl | rfl | rfl | rfl
  · unfold CfgLine.Ok; decide
  · exact ⟨hn _ (by decide), hb _ (by decide), by decide, hb _ (by decide), hv _ (by decide), Or.inl ⟨hb _ (by decide), by decide⟩⟩
  · unfold CfgLine.Ok; decide
  · unfold CfgLine.Ok; decide
  · unfold CfgLine.Ok; decide
  · exact ⟨hn _ (by decide), hb _ (by decide), by decide, hb _ (by decide), hv _ (by decide),
      Or.inr ⟨by decide, by decide, cs!"  ", cs!" old", rfl, by decide, hb _ (by decide), by decide⟩⟩
  · refine ⟨by decide, ?_, by decide⟩
    intro c hc
    have : some ' ' = some c := hc
    injection this with this
    subst this
    decide
  · exact ⟨hn _ (by decide), hb _ (by decide), by decide, hb _ (by decide), hv _ (by decide), Or.inl ⟨hb _ (by decide), by decide⟩⟩
  · exact ⟨hn _ (by decide), hb _ (by decide), by decide, hb _ (by decide), hv _ (by decide), Or.inl ⟨hb _ (by decide), by decide⟩⟩
  · unfold CfgLine.Ok; decide
  · exact ⟨by decide, hb _ (by decide), by decide, hv _ (by decide), hb _ (by decide)⟩
  · unfold CfgLine.Ok; decide
  · exact ⟨hn _ (by decide), hb _ (by decide), by decide, hb _ (by decide), hv _ (by decide), Or.inl ⟨hb _ (by decide), by decide⟩⟩
  · exact ⟨hn _ (by decide), hb _ (by decide), by decide, hb _ (by decide), clean_semicolon (by decide) (by decide),
      Or.inl ⟨hb _ (by decide), fun _ => rfl⟩⟩
  · unfold CfgLine.Ok; decide
  · exact ⟨hn _ (by decide), hb _ (by decide), by decide, hb _ (by decide), hv _ (by decide), Or.inl ⟨hb _ (by decide), by decide⟩⟩

theorem exCfg_allowed : CfgSaid.nothing.AllowsAll exCfg := by
  refine ⟨trivial, ?_, trivial, trivial, trivial, ?_, trivial, ?_, ?_, trivial, ?_, trivial, ?_, ?_, trivial, ?_, trivial⟩
  all_goals first | rfl | (show some _ ≠ none; simp)

/-- `C139_file` on it: the last `input` of the section, the two lines of `weighting`, the default `log`, nothing else. -/
example : ∃ g, Cfg.parse (cfgText exCfg) = .ok g ∧ g cs!"build_core_space" cs!"input" = some cs!"ex02" ∧
    g cs!"build_core_space" cs!"weighting" = some cs!"ppmi,\nplog" ∧ g cs!"build_core_space" cs!"log" = some cs!"all.log" ∧
    g cs!"build_core_space" cs!"gz" = some [] ∧ g cs!"compute_neighbours" cs!"input" = some cs!"words.txt" ∧
    g cs!"compute_neighbours" cs!"output" = some cs!";a ;b" ∧ g cs!"build_core_space" cs!"output" = none ∧
    g cs!"train_composition" cs!"log" = none := by
  obtain ⟨g, h1, h2⟩ := C139_file exCfg exCfg_ok exCfg_allowed
  refine ⟨g, h1, ?_, ?_, ?_, ?_, ?_, ?_, ?_, ?_⟩ <;> rw [h2 _ _ (by decide)] <;> decide +kernel

/-- `C139_values` on it, with `-w none` on the command line. -/
example : ∃ st, cliCore.parseArgs Cfg.parse ⟨[], [[]], Dict.empty.set [cs!"f"] (cfgText exCfg)⟩ [cs!"-w", cs!"none", cs!"f"] = .ok st ∧
    st cs!"in_file_prefix" = .str cs!"ex02" ∧ st cs!"weightings" = .list [cs!"none"] ∧ st cs!"gz" = .str [] := by
  obtain ⟨st, h1, h2⟩ := C139_values (c := cliCore) (docs := docCore) (by simp [documentedScripts])
    ⟨[], [[]], Dict.empty.set [cs!"f"] (cfgText exCfg)⟩ [⟨docCore[2], .shortSep 'w', cs!"none"⟩]
    (by intro g hg; rw [List.mem_singleton] at hg; subst hg; simp [Given.Valid, docCore]) cs!"f" (by decide) exCfg exCfg_ok
    exCfg_allowed rfl
  refine ⟨st, h1, ?_, ?_, ?_⟩
  · exact (h2 docCore[0] (by simp [docCore])).trans (by decide +kernel)
  · exact (h2 docCore[2] (by simp [docCore])).trans (by decide +kernel)
  · exact (h2 docCore[8] (by simp [docCore])).trans (by decide +kernel)

/-- The same file with a comment line between the two lines of `weighting`. -/
example : Cfg.parse (cs!"[s]\na=1\n" ++ (CfgLine.comment '#' cs!" x").text ++ '\n' :: cs!"  2") =
    Cfg.parse cs!"[s]\na=1\n  2\n" :=
  (C139_ignored cs!"[s]\na=1\n" cs!"  2" (Or.inr ⟨cs!"[s]\na=1", rfl⟩) (.comment '#' cs!" x") (by unfold CfgLine.Ok; decide)
    (Or.inr (Or.inl ⟨_, _, rfl⟩))).trans (C139_final_newline cs!"[s]\na=1\n  2").symm

/-- An option before any section. -/
example : Cfg.parse (cfgText [.comment '#' cs!" x"] ++ (CfgLine.option cs!"input" [] '=' [] cs!"a" []).text ++ '\n' :: cs!"[s]\n") =
    .error .parsingError :=
  C139_no_section [.comment '#' cs!" x"] (by intro l hl; rw [List.mem_singleton] at hl; subst hl; unfold CfgLine.Ok; decide) ⟨trivial, trivial⟩ rfl _ _ _ _ _ _
    ⟨⟨by decide, by decide, by decide, by decide⟩, (fun c h => by cases h), Or.inl rfl, (fun c h => by cases h),
      clean_value (by decide), Or.inl ⟨(fun c h => by cases h), fun _ => rfl⟩⟩ _

/-- An indented option right after the header. -/
example : Cfg.parse (cfgText [.header cs!"s"] ++ (CfgLine.more cs!"  " cs!"input=a" []).text ++ '\n' :: cs!"b=1\n") = .error .parsingError :=
  C139_indented_first [.header cs!"s"] (by intro l hl; rw [List.mem_singleton] at hl; subst hl; unfold CfgLine.Ok; decide)
    ⟨trivial, trivial⟩ rfl _ _ _ ⟨by decide, by unfold Blanks; decide, by decide, clean_value (by decide), (fun c h => by cases h)⟩ _

/-- A line without a separator. -/
example : Cfg.parse (cfgText [.header cs!"s"] ++ cs!"input a" ++ '\n' :: cs!"b=1\n") = .error .parsingError :=
  C139_junk_line [.header cs!"s"] (by intro l hl; rw [List.mem_singleton] at hl; subst hl; unfold CfgLine.Ok; decide) ⟨trivial, trivial⟩ 'i' cs!"nput a" (by decide)
    (by intro w hw; have : some cs!"input" = some w := hw; injection this with this; subst this; decide) (by decide) (by decide) _

/-- The options `-i ex01 -w ppmi,plog`, of which the second goes to the file. -/
example : cliCore.parseArgs Cfg.parse ⟨[], [[]], Dict.empty.set [cs!"f"] (cfgText (cfgOf cs!"build_core_space"
      [⟨docCore[2], .longSep, cs!"ppmi,plog"⟩]))⟩ [cs!"-i", cs!"ex01", cs!"f"] =
    cliCore.parseArgs Cfg.parse ⟨[], [[]], Dict.empty.set [cs!"f"] (cfgText (cfgOf cs!"build_core_space"
      [⟨docCore[2], .longSep, cs!"ppmi,plog"⟩]))⟩ [cs!"--weighting", cs!"ppmi,plog", cs!"-i", cs!"ex01"] :=
  C139_as_command_line (c := cliCore) (docs := docCore) (by simp [documentedScripts]) _
    [⟨docCore[2], .longSep, cs!"ppmi,plog"⟩] [⟨docCore[0], .shortSep 'i', cs!"ex01"⟩]
    (by intro g hg; rw [List.mem_singleton] at hg; subst hg; simp [Given.Valid, docCore])
    (by intro g hg; rw [List.mem_singleton] at hg; subst hg; exact ⟨clean_value (by decide), by decide⟩)
    (by intro g hg; rw [List.mem_singleton] at hg; subst hg; simp [Given.Valid, docCore])
    cs!"f" (by decide) rfl

/-- An unparsable file. -/
example : cliCore.parseArgs Cfg.parse ⟨[], [[]], Dict.empty.set [cs!"f"] cs!"input=a\n"⟩ [cs!"-i", cs!"ex01", cs!"f"] =
    .error (.raised .parsingError) :=
  C139_unparsable (c := cliCore) (docs := docCore) (by simp [documentedScripts]) _ [⟨docCore[0], .shortSep 'i', cs!"ex01"⟩]
    (by intro g hg; rw [List.mem_singleton] at hg; subst hg; simp [Given.Valid, docCore]) cs!"f" (by decide) _ .parsingError rfl
    (by rfl)

end Dissect
