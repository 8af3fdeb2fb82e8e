import Verif.Model.Fs
import Verif.Lemmas.Py
import Mathlib.Data.List.TakeWhile

/-! Paths and the file system. -/

namespace Dissect

theorem splitSlashAux_noslash {t : Str} (h : '/' ∉ t) : ∀ cur, splitSlashAux cur t = [cur ++ t] := by
  induction t with
  | nil => intro cur; simp [splitSlashAux]
  | cons c cs ih =>
    intro cur
    unfold splitSlashAux
    rw [if_neg (by rintro rfl; apply h; simp), ih (by intro hc; apply h; simp [hc])]
    simp

theorem splitSlashAux_ne_nil (s : Str) : ∀ cur, splitSlashAux cur s ≠ [] := by
  induction s with
  | nil => intro cur; simp [splitSlashAux]
  | cons c cs ih =>
    intro cur
    unfold splitSlashAux
    split
    · simp
    · exact ih _

theorem splitSlashAux_append {t : Str} (h : '/' ∉ t) (s : Str) : ∀ cur,
    ∃ init last, splitSlashAux cur s = init ++ [last] ∧ splitSlashAux cur (s ++ t) = init ++ [last ++ t] := by
  induction s with
  | nil =>
    intro cur
    exact ⟨[], cur, rfl, by rw [List.nil_append, splitSlashAux_noslash h]; rfl⟩
  | cons c cs ih =>
    intro cur
    rw [List.cons_append]
    by_cases hc : c = '/'
    · obtain ⟨init, last, h1, h2⟩ := ih []
      refine ⟨cur :: init, last, ?_, ?_⟩
      · unfold splitSlashAux; rw [if_pos hc, h1]; rfl
      · conv_lhs => unfold splitSlashAux
        rw [if_pos hc, h2]; rfl
    · obtain ⟨init, last, h1, h2⟩ := ih (cur ++ [c])
      refine ⟨init, last, ?_, ?_⟩
      · unfold splitSlashAux; rw [if_neg hc, h1]
      · conv_lhs => unfold splitSlashAux
        rw [if_neg hc, h2]

/-- A slash separates components. -/
theorem splitSlashAux_slash (s t : Str) : ∀ cur, splitSlashAux cur (s ++ '/' :: t)
    = splitSlashAux cur s ++ splitSlashAux [] t := by
  induction s with
  | nil => intro cur; simp [splitSlashAux]
  | cons c cs ih =>
    intro cur
    rw [List.cons_append]
    by_cases hc : c = '/'
    · rw [splitSlashAux, if_pos hc, ih, show splitSlashAux cur (c :: cs) = cur :: splitSlashAux [] cs by
        rw [splitSlashAux, if_pos hc]]
      rfl
    · rw [splitSlashAux, if_neg hc, ih, show splitSlashAux cur (c :: cs) = splitSlashAux (cur ++ [c]) cs by
        rw [splitSlashAux, if_neg hc]]

theorem pathComps_slash (s t : Str) : pathComps (s ++ '/' :: t) = pathComps s ++ pathComps t := by
  unfold pathComps
  rw [splitSlashAux_slash, List.filter_append]

@[simp] theorem pathComps_nil : pathComps [] = [] := rfl

theorem pathComps_noslash {t : Str} (h : '/' ∉ t) : pathComps t = if t = [] ∨ t = ['.'] then [] else [t] := by
  unfold pathComps
  rw [splitSlashAux_noslash h, List.nil_append]
  by_cases h1 : t = []
  · simp [h1]
  · by_cases h2 : t = ['.']
    · simp [h2]
    · simp [h1, h2]

/-- The components of a prefix followed by an extension `.e`: only the last component depends on the extension. -/
theorem pathComps_ext (pre : Str) : ∃ init last, ∀ e : Str, e ≠ [] → '/' ∉ e →
    pathComps (pre ++ ['.'] ++ e) = init ++ [last ++ ['.'] ++ e] := by
  obtain ⟨init, last, h1, -⟩ := splitSlashAux_append (t := []) (by simp) pre []
  refine ⟨init.filter (fun c => decide (c ≠ [] ∧ c ≠ ['.'])), last, fun e he hs => ?_⟩
  obtain ⟨init', last', g1, g2⟩ := splitSlashAux_append (t := ['.'] ++ e) (by simpa using hs) pre []
  rw [h1] at g1
  obtain ⟨rfl, h⟩ := List.append_inj' g1 rfl
  injection h with h
  subst h
  unfold pathComps
  rw [List.append_assoc, g2, List.filter_append]
  congr 1
  rw [List.filter_cons, if_pos, List.filter_nil, List.append_assoc]
  simp only [decide_eq_true_eq]
  constructor
  · simp
  · intro h
    have := congrArg List.length h
    have hp : 0 < e.length := List.length_pos_iff.2 he
    simp at this
    omega

namespace Fs

theorem resolve_cwd {fs fs' : Fs} (h : fs.cwd = fs'.cwd) (p : Str) : fs.resolve p = fs'.resolve p := by
  unfold resolve; rw [h]

theorem isAbs_append (pre t : Str) (h : t.head? ≠ some '/') : isAbs (pre ++ t) = isAbs pre := by
  unfold isAbs
  cases pre with
  | nil =>
    simp only [List.nil_append, List.head?_nil]
    simp [h]
  | cons c cs => rfl

theorem resolve_ext (fs : Fs) (pre : Str) : ∃ init last, ∀ e : Str, e ≠ [] → '/' ∉ e →
    fs.resolve (pre ++ ['.'] ++ e) = init ++ [last ++ ['.'] ++ e] := by
  obtain ⟨init, last, h⟩ := pathComps_ext pre
  by_cases ha : isAbs pre = true
  · refine ⟨init, last, fun e he hs => ?_⟩
    unfold resolve
    rw [List.append_assoc, isAbs_append _ _ (by simp), if_pos ha, ← List.append_assoc, h e he hs]
  · refine ⟨fs.cwd ++ init, last, fun e he hs => ?_⟩
    unfold resolve
    rw [List.append_assoc, isAbs_append _ _ (by simp), if_neg ha, ← List.append_assoc, h e he hs]
    simp

theorem resolve_ext_inj (fs : Fs) (pre : Str) {e1 e2 : Str} (h1 : e1 ≠ []) (h2 : e2 ≠ []) (s1 : '/' ∉ e1)
    (s2 : '/' ∉ e2) (hne : e1 ≠ e2) : fs.resolve (pre ++ ['.'] ++ e1) ≠ fs.resolve (pre ++ ['.'] ++ e2) := by
  obtain ⟨init, last, h⟩ := resolve_ext fs pre
  rw [h e1 h1 s1, h e2 h2 s2]
  intro heq
  have := (List.append_inj' heq rfl).2
  injection this with this
  exact hne (List.append_cancel_left this)

theorem writeText_of_ok (fs : Fs) (p c : Str) : fs.writeText p (.ok c) = fs.write p c := by
  unfold writeText
  cases h : fs.write p [] with
  | ok _ => rfl
  | error e =>
    unfold write at h ⊢
    split at h
    · rename_i hc
      rw [if_pos hc]
      exact h.symm
    · cases h

/-- Writing once more to a file that has just been opened. -/
theorem writeText_again {fs fs2 : Fs} {p : Str} (h : fs.write p [] = .ok fs2) (txt : Py Str) :
    fs2.writeText p txt = txt >>= fun c => fs2.write p c := by
  have h2 : ∃ g, fs2.write p [] = .ok g := by
    unfold write at h
    split at h
    · cases h
    · rename_i hc
      injection h with h
      subst h
      refine ⟨_, if_neg ?_⟩
      exact hc
  obtain ⟨g, h2⟩ := h2
  unfold writeText
  rw [h2]
  rfl

/-- Success of `writeText`. -/
theorem writeText_ok {fs fs' : Fs} {p : Str} {txt : Py Str} :
    fs.writeText p txt = .ok fs' ↔ ∃ c, txt = .ok c ∧ fs.write p c = .ok fs' := by
  cases txt with
  | ok c =>
    rw [writeText_of_ok]
    exact ⟨fun h => ⟨c, rfl, h⟩, fun ⟨c', e, h⟩ => by injection e with e; subst e; exact h⟩
  | error e =>
    constructor
    · intro h
      unfold writeText at h
      split at h <;> cases h
    · rintro ⟨c, h, -⟩
      cases h

theorem write_ok {fs fs' : Fs} {p c : Str} (h : fs.write p c = .ok fs') :
    fs'.cwd = fs.cwd ∧ fs'.dirs = fs.dirs ∧ p ≠ [] ∧
      ∀ x, fs'.files.get? x = if x = fs.resolve p then some c else fs.files.get? x := by
  unfold write at h
  split at h
  · cases h
  · rename_i hc
    injection h with h
    subst h
    refine ⟨rfl, rfl, fun hp => hc (Or.inl hp), fun x => ?_⟩
    simp only [Dict.get?_set]

theorem read_eq {fs : Fs} {p c : Str} (hp : p ≠ []) (h : fs.files.get? (fs.resolve p) = some c) :
    fs.read p = .ok c := by
  unfold read
  rw [if_neg hp, h]

/-- A file just written can be read. -/
theorem read_write_same {fs fs' : Fs} {p c : Str} (h : fs.write p c = .ok fs') : fs'.read p = .ok c := by
  obtain ⟨h1, h2, h3, h4⟩ := write_ok h
  apply read_eq h3
  rw [h4, resolve_cwd h1, if_pos rfl]

/-- Writing one file leaves the others alone. -/
theorem read_write_other {fs fs' : Fs} {p q c x : Str} (h : fs.write p c = .ok fs')
    (hne : fs.resolve q ≠ fs.resolve p) (hq : fs.read q = .ok x) : fs'.read q = .ok x := by
  obtain ⟨h1, h2, h3, h4⟩ := write_ok h
  unfold read at hq ⊢
  split at hq
  · cases hq
  · rename_i hqn
    rw [if_neg hqn, resolve_cwd h1, h4, if_neg hne]
    exact hq

end Fs
end Dissect
