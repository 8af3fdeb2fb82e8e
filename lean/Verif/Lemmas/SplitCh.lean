import Verif.Model.Pipeline

/-! Lemmas about `str.split(c)` and the last component of a path. -/

namespace Dissect

theorem splitChAux_noc {c : Char} {t : Str} (h : c ∉ t) : ∀ cur, splitChAux c cur t = [cur ++ t] := by
  induction t with
  | nil => intro cur; simp [splitChAux]
  | cons x xs ih =>
    intro cur
    have hx : x ≠ c := fun e => h (by rw [e]; simp)
    simp only [splitChAux, if_neg hx]
    rw [ih (fun hm => h (List.mem_cons_of_mem _ hm))]
    simp

theorem splitChAux_sep (c : Char) (s t : Str) : ∀ cur, splitChAux c cur (s ++ c :: t)
    = splitChAux c cur s ++ splitChAux c [] t := by
  induction s with
  | nil => intro cur; simp [splitChAux]
  | cons x xs ih =>
    intro cur
    simp only [List.cons_append, splitChAux]
    split
    · rw [ih]; simp
    · rw [ih]

theorem splitCh_noc {c : Char} {t : Str} (h : c ∉ t) : splitCh c t = [t] := by
  unfold splitCh; rw [splitChAux_noc h]; simp

theorem splitCh_sep (c : Char) (s t : Str) : splitCh c (s ++ c :: t) = splitCh c s ++ splitCh c t :=
  splitChAux_sep c s t []

theorem splitChAux_ne_nil (c : Char) (s : Str) : ∀ cur, splitChAux c cur s ≠ [] := by
  induction s with
  | nil => intro cur; simp [splitChAux]
  | cons x xs ih =>
    intro cur
    simp only [splitChAux]
    split
    · simp
    · exact ih _

theorem splitCh_ne_nil (c : Char) (s : Str) : splitCh c s ≠ [] := splitChAux_ne_nil c s []

theorem splitChAux_pieces (c : Char) (s : Str) : ∀ cur, c ∉ cur → ∀ p ∈ splitChAux c cur s, c ∉ p := by
  induction s with
  | nil => intro cur h p hp; simp only [splitChAux, List.mem_singleton] at hp; rwa [hp]
  | cons x xs ih =>
    intro cur h p hp
    simp only [splitChAux] at hp
    split at hp
    · rcases List.mem_cons.1 hp with rfl | hp
      · exact h
      · exact ih [] (by simp) p hp
    · rename_i hx
      refine ih _ ?_ p hp
      simp only [List.mem_append, List.mem_singleton, not_or]
      exact ⟨h, fun e => hx e.symm⟩

theorem splitCh_pieces {c : Char} {s p : Str} (h : p ∈ splitCh c s) : c ∉ p :=
  splitChAux_pieces c s [] (by simp) p h

theorem joinStr_cons (sep x : Str) {l : List Str} (h : l ≠ []) : joinStr sep (x :: l) = x ++ sep ++ joinStr sep l := by
  cases l with
  | nil => exact absurd rfl h
  | cons y ys => rfl

theorem joinStr_splitChAux (c : Char) (s : Str) : ∀ cur, joinStr [c] (splitChAux c cur s) = cur ++ s := by
  induction s with
  | nil => intro cur; simp [splitChAux, joinStr]
  | cons x xs ih =>
    intro cur
    simp only [splitChAux]
    split
    · rename_i hx
      rw [joinStr_cons _ _ (splitChAux_ne_nil c xs []), ih]
      simp [hx]
    · rw [ih]; simp

theorem joinStr_splitCh (c : Char) (s : Str) : joinStr [c] (splitCh c s) = s := by
  unfold splitCh; rw [joinStr_splitChAux]; simp

theorem splitCh_eq_three {c : Char} {s a b d : Str} (h : splitCh c s = [a, b, d]) :
    s = a ++ [c] ++ (b ++ [c] ++ d) ∧ c ∉ a ∧ c ∉ b ∧ c ∉ d := by
  refine ⟨?_, splitCh_pieces (s := s) (by simp [h]), splitCh_pieces (s := s) (by simp [h]), splitCh_pieces (s := s) (by simp [h])⟩
  rw [← joinStr_splitCh c s, h]; rfl

theorem splitCh_eq_two {c : Char} {s a b : Str} (h : splitCh c s = [a, b]) :
    s = a ++ [c] ++ b ∧ c ∉ a ∧ c ∉ b := by
  refine ⟨?_, splitCh_pieces (s := s) (by simp [h]), splitCh_pieces (s := s) (by simp [h])⟩
  rw [← joinStr_splitCh c s, h]; rfl

/-- The last component of a path. -/
theorem lastComp_noslash {b : Str} (h : '/' ∉ b) : lastComp b = b := by
  unfold lastComp; rw [splitCh_noc h]; rfl

theorem lastComp_slash (d : Str) {b : Str} (h : '/' ∉ b) : lastComp (d ++ '/' :: b) = b := by
  unfold lastComp; rw [splitCh_sep, splitCh_noc h]; simp

theorem lastComp_spec (p : Str) : '/' ∉ lastComp p ∧ (p = lastComp p ∨ ∃ d, p = d ++ '/' :: lastComp p) := by
  have hne := splitCh_ne_nil '/' p
  have hl : lastComp p = (splitCh '/' p).getLast hne := by
    unfold lastComp; rw [List.getLast?_eq_getLast_of_ne_nil hne]; rfl
  constructor
  · rw [hl]; exact splitCh_pieces (List.getLast_mem hne)
  · have hj := joinStr_splitCh '/' p
    have hsplit := List.dropLast_append_getLast hne
    rw [← hl] at hsplit
    rw [← hsplit] at hj
    generalize (splitCh '/' p).dropLast = l at hj
    generalize lastComp p = b at *
    clear hl hsplit hne
    rw [← hj]; clear hj
    induction l with
    | nil => left; rfl
    | cons x xs ih =>
      right
      rw [List.cons_append, joinStr_cons _ _ (by simp)]
      rcases ih with h | ⟨d, h⟩
      · exact ⟨x, by rw [h]; simp⟩
      · exact ⟨x ++ ['/'] ++ d, by rw [h]; simp⟩

end Dissect
