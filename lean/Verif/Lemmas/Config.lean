import Verif.Spec.Config
import Verif.Lemmas.Text
import Verif.Lemmas.Py
import Verif.Lemmas.Space

/-! # Reading configuration files -/

namespace Dissect
namespace Cfg

/-! ### Stripping -/

theorem dropWhile_all {s t : Str} (h : ∀ c ∈ s, isWs c = true) : (s ++ t).dropWhile isWs = t.dropWhile isWs := by
  induction s with
  | nil => rfl
  | cons c cs ih =>
    rw [List.cons_append, List.dropWhile_cons, if_pos (h c (by simp)), ih (fun x hx => h x (by simp [hx]))]

theorem dropWhile_self {s : Str} (h : ∀ c, s.head? = some c → isWs c = false) : s.dropWhile isWs = s := by
  cases s with
  | nil => rfl
  | cons c cs => rw [List.dropWhile_cons, if_neg (by simp [h c rfl])]

theorem rstrip_append_ws {s t : Str} (ht : ∀ c ∈ t, isWs c = true) : rstrip (s ++ t) = rstrip s := by
  unfold rstrip
  rw [List.reverse_append, dropWhile_all (fun c hc => ht c (List.mem_reverse.1 hc))]

theorem rstrip_self {s : Str} (h : ∀ c, s.getLast? = some c → isWs c = false) : rstrip s = s := by
  unfold rstrip
  rw [dropWhile_self (s := s.reverse) (fun c hc => h c (by rwa [List.head?_reverse] at hc)), List.reverse_reverse]

theorem strip_eq (s : Str) : strip s = rstrip (s.dropWhile isWs) := rfl

theorem dropWhile_append_of {s t : Str} (h : ∃ c ∈ s, isWs c = false) :
    (s ++ t).dropWhile isWs = s.dropWhile isWs ++ t := by
  induction s with
  | nil => obtain ⟨c, hc, _⟩ := h; cases hc
  | cons x xs ih =>
    rw [List.cons_append, List.dropWhile_cons, List.dropWhile_cons]
    by_cases hx : isWs x = true
    · rw [if_pos hx, if_pos hx]
      apply ih
      obtain ⟨c, hc, hw⟩ := h
      rcases List.mem_cons.1 hc with rfl | hc
      · rw [hx] at hw; cases hw
      · exact ⟨c, hc, hw⟩
    · rw [if_neg hx, if_neg hx]; rfl

theorem strip_append_ws {s t : Str} (ht : ∀ c ∈ t, isWs c = true) : strip (s ++ t) = strip s := by
  rw [strip_eq, strip_eq]
  by_cases h : ∃ c ∈ s, isWs c = false
  · rw [dropWhile_append_of h, rstrip_append_ws ht]
  · have hs : ∀ c ∈ s, isWs c = true := fun c hc => by
      by_contra hn; exact h ⟨c, hc, by simpa using hn⟩
    rw [dropWhile_all hs, (dropWhile_eq_nil' t).2 ht, (dropWhile_eq_nil' s).2 hs]

theorem strip_clean {v : Str} (h1 : ∀ c, v.head? = some c → isWs c = false) (h2 : ∀ c, v.getLast? = some c → isWs c = false)
    {i b : Str} (hi : ∀ c ∈ i, isWs c = true) (hb : ∀ c ∈ b, isWs c = true) : strip (i ++ v ++ b) = v := by
  rw [strip_append_ws hb, strip_eq, dropWhile_all hi, dropWhile_self h1, rstrip_self h2]

theorem blanks_ws {b : Str} (h : Blanks b) : ∀ c ∈ b, isWs c = true := by
  intro c hc
  rcases h c hc with rfl | rfl <;> decide

theorem blanks_nl {b : Str} (h : Blanks b) : '\n' ∉ b := by
  intro hc
  rcases h _ hc with h | h <;> revert h <;> decide

/-! ### A newline at the end of a line -/

theorem newline_ws : ∀ c ∈ ['\n'], isWs c = true := by decide

theorem ignored_newline {l : Str} (hl : l ≠ []) : ignored (l ++ ['\n']) = ignored l := by
  obtain ⟨c, cs, rfl⟩ := List.exists_cons_of_ne_nil hl
  unfold ignored
  rw [strip_append_ws newline_ws]
  unfold split
  rw [splitAux_append_ws _ _ newline_ws]
  rfl

theorem indented_newline {l : Str} (hl : l ≠ []) : indented (l ++ ['\n']) = indented l := by
  obtain ⟨c, cs, rfl⟩ := List.exists_cons_of_ne_nil hl
  rfl

theorem takeWhile_stop {p : Char → Bool} {s : Str} (t : Str) (h : ∃ c ∈ s, p c = false) : (s ++ t).takeWhile p = s.takeWhile p := by
  induction s with
  | nil => obtain ⟨c, hc, _⟩ := h; cases hc
  | cons x xs ih =>
    rw [List.cons_append, List.takeWhile_cons, List.takeWhile_cons]
    by_cases hx : p x = true
    · rw [if_pos hx, if_pos hx, ih]
      obtain ⟨c, hc, hw⟩ := h
      rcases List.mem_cons.1 hc with rfl | hc
      · rw [hx] at hw; cases hw
      · exact ⟨c, hc, hw⟩
    · rw [if_neg hx, if_neg hx]

theorem dropWhile_stop {p : Char → Bool} {s : Str} (t : Str) (h : ∃ c ∈ s, p c = false) :
    (s ++ t).dropWhile p = s.dropWhile p ++ t := by
  induction s with
  | nil => obtain ⟨c, hc, _⟩ := h; cases hc
  | cons x xs ih =>
    rw [List.cons_append, List.dropWhile_cons, List.dropWhile_cons]
    by_cases hx : p x = true
    · rw [if_pos hx, if_pos hx, ih]
      obtain ⟨c, hc, hw⟩ := h
      rcases List.mem_cons.1 hc with rfl | hc
      · rw [hx] at hw; cases hw
      · exact ⟨c, hc, hw⟩
    · rw [if_neg hx, if_neg hx]; rfl

theorem takeWhile_all {p : Char → Bool} {s : Str} (h : ∀ c ∈ s, p c = true) : s.takeWhile p = s := by
  rw [List.takeWhile_eq_self_iff]; exact h

theorem sectHeader_newline (l : Str) : sectHeader (l ++ ['\n']) = sectHeader l := by
  cases l with
  | nil => rfl
  | cons c cs =>
    by_cases hc : c = '['
    · subst hc
      show (if _ then _ else _) = (if _ then _ else _)
      by_cases hm : ']' ∈ cs
      · have : (cs ++ ['\n']).takeWhile (fun c => decide (c ≠ ']')) = cs.takeWhile (fun c => decide (c ≠ ']')) :=
          takeWhile_stop _ ⟨']', hm, by decide⟩
        rw [List.append_eq, this]
        simp [hm]
      · rw [if_neg, if_neg]
        · exact fun h => hm h.2
        · rintro ⟨_, h⟩
          rw [List.append_eq, List.mem_append] at h
          rcases h with h | h
          · exact hm h
          · revert h; decide
    · unfold sectHeader
      split
      · rename_i h; exact absurd (List.cons.inj h).1 hc
      · split
        · rename_i h; exact absurd (List.cons.inj h).1 hc
        · rfl

/-- The end of a value. -/
theorem value_newline {s : Str} (hs : '\n' ∉ s) :
    ((s ++ ['\n']).dropWhile isWs).takeWhile (fun c => decide (c ≠ '\n')) =
      (s.dropWhile isWs).takeWhile (fun c => decide (c ≠ '\n')) := by
  by_cases h : ∃ c ∈ s, isWs c = false
  · rw [dropWhile_append_of h]
    have hn : ∀ c ∈ s.dropWhile isWs, decide (c ≠ '\n') = true := by
      intro c hc
      rw [decide_eq_true_eq]
      rintro rfl
      exact hs ((List.dropWhile_sublist _).subset hc)
    rw [takeWhile_all hn, List.takeWhile_append_of_pos hn]
    simp
  · have hs' : ∀ c ∈ s, isWs c = true := fun c hc => by
      by_contra hn; exact h ⟨c, hc, by simpa using hn⟩
    rw [dropWhile_all hs', (dropWhile_eq_nil' s).2 hs']
    rfl

theorem optLine_newline {l : Str} (hl : l ≠ []) (hn : '\n' ∉ l) : optLine (l ++ ['\n']) = optLine l := by
  unfold optLine
  rw [indented_newline hl]
  by_cases hi : indented l = true
  · rw [if_pos hi, if_pos hi]
  · rw [if_neg hi, if_neg hi]
    by_cases h : ∃ c ∈ l, decide (c ≠ ':' ∧ c ≠ '=') = false
    · rw [takeWhile_stop _ h, dropWhile_stop _ h]
      cases ht : l.takeWhile (fun c => decide (c ≠ ':' ∧ c ≠ '=')) with
      | nil => rfl
      | cons a as =>
        cases hd : l.dropWhile (fun c => decide (c ≠ ':' ∧ c ≠ '=')) with
        | nil =>
          obtain ⟨c, hc, hp⟩ := h
          rw [List.dropWhile_eq_nil_iff] at hd
          rw [hd c hc] at hp; cases hp
        | cons b bs =>
          have : '\n' ∉ bs := fun hb => hn ((List.dropWhile_sublist _).subset (by rw [hd]; simp [hb]))
          simp only [List.cons_append, value_newline this]
    · have hall : ∀ c ∈ l, decide (c ≠ ':' ∧ c ≠ '=') = true := fun c hc => by
        by_contra hp; exact h ⟨c, hc, by simpa using hp⟩
      have h1 : l.dropWhile (fun c => decide (c ≠ ':' ∧ c ≠ '=')) = [] := List.dropWhile_eq_nil_iff.2 hall
      have h2 : (l ++ ['\n']).dropWhile (fun c => decide (c ≠ ':' ∧ c ≠ '=')) = [] := by
        rw [List.dropWhile_eq_nil_iff]
        intro c hc
        rcases List.mem_append.1 hc with hc | hc
        · exact hall c hc
        · rw [List.mem_singleton] at hc; subst hc; decide
      rw [h1, h2]
      cases List.takeWhile (fun c => decide (c ≠ ':' ∧ c ≠ '=')) l <;>
        cases List.takeWhile (fun c => decide (c ≠ ':' ∧ c ≠ '=')) (l ++ ['\n']) <;> rfl

theorem step_newline (r : Reader) {l : Str} (hl : l ≠ []) (hn : '\n' ∉ l) : step r (l ++ ['\n']) = step r l := by
  unfold step
  rw [ignored_newline hl, indented_newline hl, sectHeader_newline, optLine_newline hl hn, strip_append_ws newline_ws]

/-! ### Single lines -/

theorem step_ignored {r : Reader} {l : Str} (h : ignored l = true) : step r l = .ok r := by
  unfold step; rw [if_pos h]

theorem ignored_blank {l : Str} (h : ∀ c ∈ l, isWs c = true) : ignored l = true := by
  unfold ignored
  have : strip l = [] := by rw [strip_eq, (dropWhile_eq_nil' l).2 h]; rfl
  simp [this]

theorem ignored_comment {m : Char} (hm : m = '#' ∨ m = ';') (t : Str) : ignored (m :: t) = true := by
  rcases hm with rfl | rfl <;> simp [ignored]

theorem strip_ne_nil {l : Str} {c : Char} (hc : c ∈ l) (hw : isWs c = false) : strip l ≠ [] := by
  rw [ne_eq, strip_eq_nil]
  unfold split
  rw [splitAux_eq_nil]
  rintro ⟨_, h⟩
  rw [h c hc] at hw; cases hw

theorem step_header {n : Str} (h1 : n ≠ []) (h2 : ']' ∉ n) (r : Reader) : step r (('[' :: n) ++ [']']) = .ok (r.enter n) := by
  have hi : ignored (('[' :: n) ++ [']']) = false := by
    unfold ignored
    have := strip_ne_nil (l := ('[' :: n) ++ [']']) (c := '[') (by simp) (by decide)
    rw [decide_eq_false this]
    simp
  have hs : sectHeader (('[' :: n) ++ [']']) = some n := by
    have ht : (n ++ [']']).takeWhile (fun c => decide (c ≠ ']')) = n := by
      rw [List.takeWhile_append_of_pos (by intro c hc; rw [decide_eq_true_eq]; rintro rfl; exact h2 hc)]
      simp
    show (if _ then _ else _) = _
    rw [List.append_eq, ht, if_pos ⟨h1, by simp⟩]
  unfold step
  rw [hi, if_neg (by simp), show indented (('[' :: n) ++ [']']) = false from rfl, hs]

/-- The first word of a line that begins with a word. -/
theorem split_head {w t : Str} (hw : ∀ c ∈ w, isWs c = false) (hne : w ≠ []) (ht : ∀ c, t.head? = some c → isWs c = true) :
    (split (w ++ t)).head? = some w := by
  cases t with
  | nil =>
    unfold split
    rw [splitAux_word hw, List.nil_append, splitAux, if_neg hne]
    rfl
  | cons c cs => rw [split_cons ⟨hne, hw⟩ (ht c rfl)]; rfl

theorem mem_lowerStr {c : Char} {s : Str} (h : c ∈ s) : c.toLower ∈ lowerStr s := List.mem_map.2 ⟨c, h, rfl⟩

theorem ignored_option {n b1 t : Str} {sep : Char} (hn : CleanName n) (hb : Blanks b1) (hs : sep = '=' ∨ sep = ':') :
    ignored (n ++ b1 ++ sep :: t) = false := by
  obtain ⟨c, cs, hc⟩ := List.exists_cons_of_ne_nil hn.nonempty
  have hcw := hn.word c (by rw [hc]; simp)
  have hrem : (split (n ++ b1 ++ sep :: t)).head?.map lowerStr ≠ some cs!"rem" := by
    cases b1 with
    | nil =>
      have hsw : isWs sep = false := by rcases hs with rfl | rfl <;> decide
      set w := n ++ sep :: t.takeWhile (fun c => !isWs c) with hw
      have e : n ++ [] ++ sep :: t = w ++ t.dropWhile (fun c => !isWs c) := by
        rw [hw, List.append_nil, List.append_assoc, List.cons_append, List.takeWhile_append_dropWhile]
      rw [e, split_head]
      · intro h
        have h' : lowerStr w = cs!"rem" := by simpa using h
        have hm : sep.toLower ∈ lowerStr w := mem_lowerStr (by rw [hw]; simp)
        rw [h'] at hm
        rcases hs with rfl | rfl <;> revert hm <;> decide
      · intro x hx
        rw [hw, List.mem_append, List.mem_cons] at hx
        rcases hx with hx | rfl | hx
        · exact (hn.word x hx).1
        · exact hsw
        · simpa using List.mem_takeWhile_imp hx
      · rw [hw]; simp
      · intro x hx
        have := List.head?_dropWhile_not (fun c => !isWs c) t
        rw [hx] at this
        simpa using this
    | cons b bs =>
      rw [List.append_assoc, split_head (fun x hx => (hn.word x hx).1) hn.nonempty]
      · intro h
        have h' : lowerStr n = cs!"rem" := by simpa using h
        exact hn.remark h'
      · intro x hx
        have hx' : b = x := by simpa using hx
        subst hx'
        exact blanks_ws hb b (by simp)
  have hst := strip_ne_nil (l := n ++ b1 ++ sep :: t) (c := c) (by rw [hc]; simp) hcw.1
  have hhead : (n ++ b1 ++ sep :: t).head? = some c := by rw [hc]; rfl
  have hstart := hn.start
  rw [hc] at hstart
  unfold ignored
  rw [hhead, decide_eq_false hst, decide_eq_false hrem]
  simp only [List.head?_cons, ne_eq] at hstart
  simp [hstart]

theorem cutComment_clean {v b : Str} (hv : CleanValue v) (hb : Blanks b)
    (hh : v.head? = some ';' → b = []) : cutComment (v ++ b) = v ++ b := by
  unfold cutComment
  split
  · rename_i h
    have hm : ';' ∈ v := by
      rcases List.mem_append.1 h with h | h
      · exact h
      · exact absurd (hb _ h) (by decide)
    rw [takeWhile_stop _ ⟨';', hm, by decide⟩]
    have hsplit : v = v.takeWhile (fun c => decide (c ≠ ';')) ++ v.dropWhile (fun c => decide (c ≠ ';')) :=
      (List.takeWhile_append_dropWhile).symm
    cases hd : v.dropWhile (fun c => decide (c ≠ ';')) with
    | nil =>
      rw [List.dropWhile_eq_nil_iff] at hd
      have := hd _ hm
      simp at this
    | cons x xs =>
      have hx := List.head?_dropWhile_not (fun c => decide (c ≠ ';')) v
      rw [hd] at hx
      have hx' : x = ';' := by simpa using hx
      subst hx'
      rw [hd] at hsplit
      have hna : ';' ∉ v.takeWhile (fun c => decide (c ≠ ';')) := by
        intro h
        have := List.mem_takeWhile_imp h
        simp at this
      rcases hv.semicolon _ _ hna hsplit with h0 | ⟨c, h1, h2⟩
      · rw [h0]
        rw [h0] at hsplit
        have hb0 : b = [] := hh (by rw [hsplit]; rfl)
        subst hb0
        rw [List.append_nil]
        cases hl : v.getLast? with
        | none => rfl
        | some c => simp [hv.last c hl]
      · rw [h1]
        simp [h2]
  · rfl

theorem cutComment_comment {v b t : Str} (hv : ';' ∉ v) (hb : Blanks b) (h0 : b ≠ []) :
    cutComment (v ++ (b ++ ';' :: t)) = v ++ b := by
  have hall : ∀ c ∈ v ++ b, decide (c ≠ ';') = true := by
    intro c hc
    rw [decide_eq_true_eq]
    rintro rfl
    rcases List.mem_append.1 hc with h | h
    · exact hv h
    · rcases hb _ h with h | h <;> revert h <;> decide
  have ht : (v ++ (b ++ ';' :: t)).takeWhile (fun c => decide (c ≠ ';')) = v ++ b := by
    rw [← List.append_assoc, List.takeWhile_append_of_pos hall]
    simp
  unfold cutComment
  rw [if_pos (by simp), ht]
  have hl : (v ++ b).getLast? = some (b.getLast h0) := by
    rw [List.getLast?_append, List.getLast?_eq_some_getLast h0]
    rfl
  rw [hl]
  have : isWs (b.getLast h0) = true := blanks_ws hb _ (List.getLast_mem h0)
  simp [this]

theorem optValue_clean {v b : Str} (hv : CleanValue v) (hb : Rest v b) : optValue (v ++ b) = meantValue v := by
  have hst : ∀ b', Blanks b' → strip (v ++ b') = v := by
    intro b' hb'
    have := strip_clean hv.first hv.last (i := []) (by simp) (blanks_ws hb')
    simpa using this
  unfold optValue meantValue
  rcases hb with ⟨hb, hh⟩ | ⟨h0, h1, b', t, rfl, h2, h3, h4⟩
  · rw [cutComment_clean hv hb hh, hst b hb]
  · rw [cutComment_comment h1 h3 h2, hst b' h3]

theorem rest_nl {v b : Str} (h : Rest v b) : '\n' ∉ b := by
  rcases h with h | ⟨h0, h1, b', t, rfl, h2, h3, h4⟩
  · exact blanks_nl h.1
  · intro hc
    rcases List.mem_append.1 hc with hc | hc
    · exact blanks_nl h3 hc
    · rcases List.mem_cons.1 hc with hc | hc
      · revert hc; decide
      · exact h4 hc

theorem toLower_r {c : Char} (h : c.toLower = 'r') : c = 'r' ∨ c = 'R' := by
  unfold Char.toLower at h
  split at h
  · right
    have h2 : c.val + 32 = 82 + 32 := congrArg Char.val h
    apply Char.ext
    exact UInt32.add_right_inj 32 |>.1 (by rw [UInt32.add_comm 32, UInt32.add_comm 32]; exact h2)
  · left; exact h

theorem ignored_remark {w t : Str} (hw : smallLetters w = cs!"rem") (ht : ∀ c, t.head? = some c → isWs c = true) :
    ignored (w ++ t) = true := by
  have hww : ∀ c ∈ w, isWs c = false := by
    intro c hc
    have hm : c.toLower ∈ smallLetters w := List.mem_map.2 ⟨c, hc, rfl⟩
    rw [hw] at hm
    by_contra h
    have hws : isWs c = true := by simpa using h
    have : ∀ c, isWs c = true → c.toLower ∉ cs!"rem" := by
      intro c hc
      unfold isWs at hc
      simp only [Bool.or_eq_true, decide_eq_true_eq] at hc
      rcases hc with ((((rfl | rfl) | rfl) | rfl) | rfl) | rfl <;> decide
    exact this c hws hm
  obtain ⟨c, w', rfl⟩ : ∃ c w', w = c :: w' := by
    cases w with
    | nil => cases hw
    | cons c w' => exact ⟨c, w', rfl⟩
  have hc : c = 'r' ∨ c = 'R' := by
    have : c.toLower = 'r' := by
      have := congrArg List.head? hw
      simpa [smallLetters] using this
    exact toLower_r this
  have hsp : (split (c :: w' ++ t)).head?.map lowerStr = some cs!"rem" := by
    rw [split_head hww (by simp) ht]
    exact congrArg some hw
  unfold ignored
  rw [decide_eq_true hsp]
  rcases hc with rfl | rfl <;> simp

theorem step_option {n b1 b2 v b3 : Str} {sep : Char} (hn : CleanName n) (h1 : Blanks b1) (hs : sep = '=' ∨ sep = ':')
    (h2 : Blanks b2) (hv : CleanValue v) (h3 : Rest v b3) {r : Reader} {s : Str} (hr : r.cur = some s) :
    step r (n ++ b1 ++ [sep] ++ b2 ++ v ++ b3) = .ok { r.put s (lowerStr n) [meantValue v] with opt := some (lowerStr n) } := by
  have e : n ++ b1 ++ [sep] ++ b2 ++ v ++ b3 = n ++ b1 ++ sep :: (b2 ++ (v ++ b3)) := by simp
  rw [e]
  obtain ⟨c, cs, hc⟩ := List.exists_cons_of_ne_nil hn.nonempty
  have hcw := hn.word c (by rw [hc]; simp)
  have hhead : (n ++ b1 ++ sep :: (b2 ++ (v ++ b3))).head? = some c := by rw [hc]; rfl
  have hind : indented (n ++ b1 ++ sep :: (b2 ++ (v ++ b3))) = false := by unfold indented; rw [hhead]; simpa using hcw.1
  have hsect : sectHeader (n ++ b1 ++ sep :: (b2 ++ (v ++ b3))) = none := by
    have hstart := hn.start.2.2
    unfold sectHeader
    split
    · rename_i rest h
      rw [h] at hhead
      rw [hc] at hstart
      injection hhead with hhead
      exact absurd (by rw [← hhead]; rfl) hstart
    · rfl
  have hall : ∀ c ∈ n ++ b1, decide (c ≠ ':' ∧ c ≠ '=') = true := by
    intro x hx
    rw [decide_eq_true_eq]
    rcases List.mem_append.1 hx with hx | hx
    · exact (hn.word x hx).2
    · rcases h1 x hx with rfl | rfl <;> decide
  have hsep : decide (sep ≠ ':' ∧ sep ≠ '=') = false := by rcases hs with rfl | rfl <;> decide
  have ht : (n ++ b1 ++ sep :: (b2 ++ (v ++ b3))).takeWhile (fun c => decide (c ≠ ':' ∧ c ≠ '=')) = n ++ b1 := by
    rw [List.takeWhile_append_of_pos hall, List.takeWhile_cons, if_neg (by rw [hsep]; simp), List.append_nil]
  have hd : (n ++ b1 ++ sep :: (b2 ++ (v ++ b3))).dropWhile (fun c => decide (c ≠ ':' ∧ c ≠ '=')) = sep :: (b2 ++ (v ++ b3)) := by
    rw [List.dropWhile_append_of_pos hall, List.dropWhile_cons, if_neg (by rw [hsep]; simp)]
  have hval : ∃ w, ((b2 ++ (v ++ b3)).dropWhile isWs).takeWhile (fun c => decide (c ≠ '\n')) = w ∧ optValue w = meantValue v := by
    refine ⟨_, rfl, ?_⟩
    rw [dropWhile_all (blanks_ws h2)]
    by_cases hv0 : v = []
    · subst hv0
      have h3 : Blanks b3 := by
        rcases h3 with h | h
        · exact h.1
        · exact absurd rfl h.1
      rw [List.nil_append, (dropWhile_eq_nil' b3).2 (blanks_ws h3)]
      exact optValue_clean (v := []) (b := []) hv (Or.inl ⟨(fun c hc => by cases hc), fun _ => rfl⟩)
    · obtain ⟨x, xs, hx⟩ := List.exists_cons_of_ne_nil hv0
      rw [dropWhile_self (s := v ++ b3) (fun c hc' => hv.first c (by rw [hx] at hc' ⊢; exact hc')), takeWhile_all]
      · exact optValue_clean hv h3
      · intro c hc'
        rw [decide_eq_true_eq]
        rintro rfl
        rcases List.mem_append.1 hc' with h | h
        · exact hv.line h
        · exact rest_nl h3 h
  obtain ⟨w, hw1, hw2⟩ := hval
  have hopt : optLine (n ++ b1 ++ sep :: (b2 ++ (v ++ b3))) = some (n ++ b1, w) := by
    unfold optLine
    rw [hind, if_neg (by simp), ht, hd]
    obtain ⟨y, ys, hy⟩ := List.exists_cons_of_ne_nil (show n ++ b1 ≠ [] by simp [hn.nonempty])
    rw [hy]
    simp only [hw1]
  have hname : rstrip (n ++ b1) = n := by
    rw [rstrip_append_ws (blanks_ws h1), rstrip_self]
    intro x hx
    exact (hn.word x (List.mem_of_mem_getLast? hx)).1
  unfold step
  rw [ignored_option hn h1 hs, if_neg (by simp), hind, hsect, hr, hopt]
  simp only [hname, hw2]

/-- An indented line where there is no option to continue. -/
theorem step_indented {i t b3 : Str} (h0 : i ≠ []) (hi : Blanks i) (ht : t ≠ []) (hv : CleanValue t) {r : Reader}
    (ho : r.opt = none) : step r (i ++ t ++ b3) = if r.cur = none then .error .parsingError else .ok { r with bad := true } := by
  obtain ⟨x, xs, hx⟩ := List.exists_cons_of_ne_nil h0
  obtain ⟨c, cs, hc⟩ := List.exists_cons_of_ne_nil ht
  have hcw := hv.first c (by rw [hc]; rfl)
  have hhead : (i ++ t ++ b3).head? = some x := by rw [hx]; rfl
  have hxw : x = ' ' ∨ x = '\t' := hi x (by rw [hx]; simp)
  have hst := strip_ne_nil (l := i ++ t ++ b3) (c := c) (by rw [hc]; simp) hcw
  have hig : ignored (i ++ t ++ b3) = false := by
    unfold ignored
    rw [hhead]
    rw [decide_eq_false hst]
    rcases hxw with rfl | rfl <;> simp
  have hind : indented (i ++ t ++ b3) = true := by
    unfold indented; rw [hhead]
    rcases hxw with rfl | rfl <;> decide
  have hsect : sectHeader (i ++ t ++ b3) = none := by
    unfold sectHeader
    split
    · rename_i rest h
      rw [h] at hhead
      have : '[' = x := by simpa using hhead
      subst this
      exact absurd hxw (by decide)
    · rfl
  have hopt : optLine (i ++ t ++ b3) = none := by
    unfold optLine
    rw [hind, if_pos rfl]
  unfold step
  rw [hig, if_neg (by simp), hind, hsect, hopt, ho]
  cases r.cur <;> simp

theorem step_more {i t b3 : Str} (h0 : i ≠ []) (hi : Blanks i) (ht : t ≠ []) (hv : CleanValue t) (h3 : Blanks b3) {r : Reader}
    {s o : Str} (hr : r.cur = some s) (ho : r.opt = some o) :
    step r (i ++ t ++ b3) = .ok (r.put s o (((r.dictOf s).get? o).getD [] ++ [t])) := by
  obtain ⟨x, xs, hx⟩ := List.exists_cons_of_ne_nil h0
  obtain ⟨c, cs, hc⟩ := List.exists_cons_of_ne_nil ht
  have hcw := hv.first c (by rw [hc]; rfl)
  have hhead : (i ++ t ++ b3).head? = some x := by rw [hx]; rfl
  have hxw : x = ' ' ∨ x = '\t' := hi x (by rw [hx]; simp)
  have hst := strip_ne_nil (l := i ++ t ++ b3) (c := c) (by rw [hc]; simp) hcw
  have hig : ignored (i ++ t ++ b3) = false := by
    unfold ignored
    rw [hhead]
    rw [decide_eq_false hst]
    rcases hxw with rfl | rfl <;> simp
  have hind : indented (i ++ t ++ b3) = true := by
    unfold indented; rw [hhead]
    rcases hxw with rfl | rfl <;> decide
  unfold step
  rw [hig, if_neg (by simp), hind, hr, ho]
  simp only [strip_clean hv.first hv.last (blanks_ws hi) (blanks_ws h3)]

end Cfg
end Dissect
