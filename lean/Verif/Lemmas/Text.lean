import Verif.Spec.Io
import Mathlib.Tactic.Linarith
import Mathlib.Data.List.TakeWhile

/-! Facts about the Python text builtins of `Model/Text.lean`. -/

namespace Dissect

theorem isWs_newline : isWs '\n' = true := by decide
theorem isWs_tab : isWs '\t' = true := by decide

theorem IsWord.no_newline {w : Str} (h : IsWord w) : '\n' ∉ w := by
  intro hc
  have := h.2 _ hc
  rw [isWs_newline] at this
  cases this

theorem splitAux_ws (s : Str) : ∀ cur, (∀ c ∈ s, isWs c = true) → splitAux cur s = if cur = [] then [] else [cur] := by
  induction s with
  | nil => intro cur _; rfl
  | cons c cs ih =>
    intro cur h
    have hc : isWs c = true := h c (by simp)
    have hcs : ∀ x ∈ cs, isWs x = true := fun x hx => h x (by simp [hx])
    unfold splitAux
    rw [if_pos hc]
    split
    · rw [ih _ hcs]; simp
    · rw [ih _ hcs]; simp

theorem splitAux_append_ws (s t : Str) (ht : ∀ c ∈ t, isWs c = true) :
    ∀ cur, splitAux cur (s ++ t) = splitAux cur s := by
  induction s with
  | nil => intro cur; rw [List.nil_append, splitAux_ws t cur ht]; rfl
  | cons c cs ih =>
    intro cur
    rw [List.cons_append]
    unfold splitAux
    rw [ih, ih]

theorem splitAux_dropWhile (s : Str) : splitAux [] (s.dropWhile isWs) = splitAux [] s := by
  induction s with
  | nil => rfl
  | cons c cs ih =>
    rw [List.dropWhile_cons]
    by_cases hc : isWs c = true
    · rw [if_pos hc, ih]
      conv_rhs => unfold splitAux
      simp [hc]
    · rw [if_neg hc]

theorem rstrip_decomp (s : Str) : ∃ t, (∀ c ∈ t, isWs c = true) ∧ s = (s.reverse.dropWhile isWs).reverse ++ t := by
  refine ⟨(s.reverse.takeWhile isWs).reverse, ?_, ?_⟩
  · intro c hc
    rw [List.mem_reverse] at hc
    exact List.mem_takeWhile_imp hc
  · rw [← List.reverse_append, List.takeWhile_append_dropWhile, List.reverse_reverse]

theorem split_strip (s : Str) : split (strip s) = split s := by
  unfold split strip
  obtain ⟨t, ht, h⟩ := rstrip_decomp (s.dropWhile isWs)
  rw [← splitAux_append_ws _ t ht, ← h, splitAux_dropWhile]

theorem splitAux_eq_nil (s : Str) : ∀ cur, splitAux cur s = [] ↔ cur = [] ∧ ∀ c ∈ s, isWs c = true := by
  induction s with
  | nil => intro cur; by_cases h : cur = [] <;> simp [splitAux, h]
  | cons c cs ih =>
    intro cur
    unfold splitAux
    by_cases hc : isWs c = true
    · rw [if_pos hc]
      by_cases h : cur = []
      · rw [if_pos h, ih]; simp [hc, h]
      · rw [if_neg h]; simp [h]
    · rw [if_neg hc, ih]
      simp [hc]

theorem dropWhile_eq_nil' (s : Str) : s.dropWhile isWs = [] ↔ ∀ c ∈ s, isWs c = true := by
  rw [List.dropWhile_eq_nil_iff]

theorem strip_eq_nil (s : Str) : strip s = [] ↔ split s = [] := by
  unfold strip split
  rw [List.reverse_eq_nil_iff, dropWhile_eq_nil', splitAux_eq_nil]
  constructor
  · intro h
    refine ⟨rfl, ?_⟩
    rw [← dropWhile_eq_nil']
    by_contra hne
    obtain ⟨c, cs, hcs⟩ := List.exists_cons_of_ne_nil hne
    have h1 : isWs c = true := h c (by rw [hcs]; simp)
    have h2 := List.head?_dropWhile_not (fun c => isWs c) s
    rw [show List.dropWhile (fun c => isWs c) s = c :: cs from hcs] at h2
    simp [h1] at h2
  · rintro ⟨_, h⟩ c hc
    rw [(dropWhile_eq_nil' s).2 h] at hc
    simp at hc

theorem splitAux_word {w : Str} (hw : ∀ c ∈ w, isWs c = false) (t : Str) :
    ∀ cur, splitAux cur (w ++ t) = splitAux (cur ++ w) t := by
  induction w with
  | nil => intro cur; simp
  | cons c cs ih =>
    intro cur
    have hc : isWs c = false := hw c (by simp)
    rw [List.cons_append]
    conv_lhs => unfold splitAux
    rw [if_neg (by simp [hc]), ih (fun x hx => hw x (by simp [hx]))]
    simp

/-- Splitting a line that starts with a word followed by whitespace. -/
theorem split_cons {w : Str} (hw : IsWord w) {c : Char} (hc : isWs c = true) (t : Str) :
    split (w ++ c :: t) = w :: split t := by
  unfold split
  rw [splitAux_word hw.2, List.nil_append]
  conv_lhs => unfold splitAux
  rw [if_pos hc, if_neg hw.1]

theorem split_join {ws : List Str} (h : ∀ w ∈ ws, IsWord w) {c : Char} (hc : isWs c = true) (t : Str)
    (ht : ∀ c ∈ t, isWs c = true) : split (joinStr [c] ws ++ t) = ws := by
  induction ws with
  | nil => unfold split; rw [joinStr, List.nil_append, splitAux_ws t [] ht]; rfl
  | cons w ws ih =>
    have hw := h w (by simp)
    cases ws with
    | nil =>
      unfold split
      rw [joinStr, splitAux_append_ws _ t ht]
      have := splitAux_word hw.2 [] []
      rw [List.append_nil, List.nil_append] at this
      rw [this, splitAux, if_neg hw.1]
    | cons v vs =>
      rw [joinStr, List.append_assoc, List.append_assoc, List.singleton_append, split_cons hw hc,
        ih (fun x hx => h x (by simp [hx]))]

theorem linesAux_line {l : Str} (hl : '\n' ∉ l) (t : Str) :
    ∀ cur, linesAux cur (l ++ '\n' :: t) = (cur ++ l ++ ['\n']) :: linesAux [] t := by
  induction l with
  | nil => intro cur; simp [linesAux]
  | cons c cs ih =>
    intro cur
    have hc : c ≠ '\n' := by intro h; apply hl; simp [h]
    rw [List.cons_append]
    conv_lhs => unfold linesAux
    rw [if_neg hc, ih (by intro h; apply hl; simp [h])]
    simp

theorem fileLines_cons {l : Str} (hl : '\n' ∉ l) (t : Str) :
    fileLines (l ++ '\n' :: t) = (l ++ ['\n']) :: fileLines t := by
  unfold fileLines
  rw [linesAux_line hl]
  simp

theorem fileLines_flatten {ls : List Str} (h : ∀ l ∈ ls, '\n' ∉ l) :
    fileLines ((ls.map (fun l => l ++ ['\n'])).flatten) = ls.map (fun l => l ++ ['\n']) := by
  induction ls with
  | nil => rfl
  | cons l ls ih =>
    rw [List.map_cons, List.flatten_cons, List.append_assoc, List.singleton_append,
      fileLines_cons (h l (by simp)), ih (fun x hx => h x (by simp [hx]))]

theorem joinStr_no_newline {ws : List Str} (h : ∀ w ∈ ws, IsWord w) : '\n' ∉ joinStr ['\t'] ws := by
  induction ws with
  | nil => simp [joinStr]
  | cons w ws ih =>
    have hw := (h w (by simp)).no_newline
    cases ws with
    | nil => simpa [joinStr] using hw
    | cons v vs =>
      rw [joinStr]
      have := ih (fun x hx => h x (by simp [hx]))
      simp only [List.mem_append, not_or]
      exact ⟨⟨hw, by decide⟩, this⟩

end Dissect
