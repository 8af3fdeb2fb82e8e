import Verif.Spec.Io
import Verif.Lemmas.Text
import Mathlib.Data.Nat.Digits.Defs
import Mathlib.Algebra.Order.Floor.Semiring
import Mathlib.Tactic.Linarith
import Mathlib.Tactic.IntervalCases
import Mathlib.Tactic.Positivity
import Mathlib.Tactic.NormNum
import Mathlib.Tactic.Ring

/-!
A concrete number format with six decimals, to show that `NumIO.Laws` can be met and to give concrete files in the
examples: `fmtF` prints sign, integer part, point and six digits, `parse` reads decimal numerals.
-/

namespace Dissect

/-- Digit character. -/
def digitCh (d : ℕ) : Char := Char.ofNat (48 + d)

/-- Decimal digits of a natural number, most significant first. -/
def natDigits (n : ℕ) : Str := if n = 0 then ['0'] else ((Nat.digits 10 n).reverse).map digitCh

/-- Exactly six digits. -/
def frac6 (m : ℕ) : Str :=
  [digitCh (m / 100000 % 10), digitCh (m / 10000 % 10), digitCh (m / 1000 % 10), digitCh (m / 100 % 10),
    digitCh (m / 10 % 10), digitCh (m % 10)]

/-- Value of a digit string. -/
def evalDigits (s : Str) : ℕ := s.foldl (fun a c => 10 * a + (c.toNat - 48)) 0

/-- Is the character a digit? -/
def isDig (c : Char) : Bool := decide (48 ≤ c.toNat ∧ c.toNat ≤ 57)

/-- Unsigned numeral `digits[.digits]`. -/
noncomputable def parseUnsigned (t : Str) : Option ℝ :=
  let a := t.takeWhile (fun c => decide (c ≠ '.'))
  let b := (t.dropWhile (fun c => decide (c ≠ '.'))).tail
  if a ≠ [] ∧ a.all isDig = true ∧ b.all isDig = true then
    some (((evalDigits a * 10 ^ b.length + evalDigits b : ℕ) : ℝ) / 10 ^ b.length)
  else none

/-- Signed numeral. -/
noncomputable def parseDec : Str → Option ℝ
  | [] => none
  | c :: t => if c = '-' then (parseUnsigned t).map (fun x => -x) else parseUnsigned (c :: t)

/-- `|x|` in millionths, rounded. -/
noncomputable def millionths (x : ℝ) : ℕ := ⌊|x| * 1000000 + 1 / 2⌋₊

/-- Fixed point numeral of `N` millionths. -/
def fixed (N : ℕ) : Str := natDigits (N / 1000000) ++ '.' :: frac6 (N % 1000000)

/-- `"%f" % x`. -/
noncomputable def fmtDec (x : ℝ) : Str := (if x < 0 then ['-'] else []) ++ fixed (millionths x)

/-- The decimal format. -/
noncomputable def decIO : NumIO := ⟨fmtDec, fmtDec, parseDec⟩

theorem parseDec_ne_none {c : Char} {t : Str} (hc : c ≠ '-')
    (h : (c :: t).takeWhile (fun c => decide (c ≠ '.')) ≠ [] ∧
      ((c :: t).takeWhile (fun c => decide (c ≠ '.'))).all isDig = true ∧
      (((c :: t).dropWhile (fun c => decide (c ≠ '.'))).tail).all isDig = true) : parseDec (c :: t) ≠ none := by
  rw [parseDec, if_neg hc]
  unfold parseUnsigned
  simp only []
  rw [if_pos h]
  simp

theorem digitCh_toNat {d : ℕ} (h : d < 10) : (digitCh d).toNat = 48 + d := by
  interval_cases d <;> rfl

theorem digitCh_dig {d : ℕ} (h : d < 10) : isDig (digitCh d) = true := by
  unfold isDig
  rw [digitCh_toNat h]
  simp
  omega

theorem isDig_ne {c : Char} (h : isDig c = true) : c ≠ '.' ∧ c ≠ '-' ∧ isWs c = false := by
  unfold isDig at h
  rw [decide_eq_true_eq] at h
  have hne : ∀ d : Char, ¬ (48 ≤ d.toNat ∧ d.toNat ≤ 57) → c ≠ d := by
    rintro d hd rfl
    exact hd h
  refine ⟨hne _ (by decide), hne _ (by decide), ?_⟩
  unfold isWs
  simp only [Bool.or_eq_false_iff, decide_eq_false_iff_not]
  exact ⟨⟨⟨⟨⟨hne _ (by decide), hne _ (by decide)⟩, hne _ (by decide)⟩, hne _ (by decide)⟩, hne _ (by decide)⟩,
    hne _ (by decide)⟩

theorem natDigits_dig (n : ℕ) : natDigits n ≠ [] ∧ ∀ c ∈ natDigits n, isDig c = true := by
  unfold natDigits
  by_cases hn : n = 0
  · rw [if_pos hn]
    refine ⟨by simp, ?_⟩
    intro c hc
    rw [List.mem_singleton] at hc
    subst hc
    decide
  · rw [if_neg hn]
    constructor
    · simp [Nat.digits_ne_nil_iff_ne_zero, hn]
    · intro c hc
      obtain ⟨d, hd, rfl⟩ := List.mem_map.1 hc
      rw [List.mem_reverse] at hd
      exact digitCh_dig (Nat.digits_lt_base (by norm_num) hd)

theorem evalDigits_natDigits (n : ℕ) : evalDigits (natDigits n) = n := by
  unfold natDigits
  by_cases hn : n = 0
  · rw [if_pos hn, hn]; rfl
  · rw [if_neg hn]
    unfold evalDigits
    rw [List.foldl_map, List.foldl_reverse]
    have key : ∀ L : List ℕ, (∀ d ∈ L, d < 10) →
        L.foldr (fun d a => 10 * a + ((digitCh d).toNat - 48)) 0 = Nat.ofDigits 10 L := by
      intro L
      induction L with
      | nil => intro _; rfl
      | cons d L ih =>
        intro h
        rw [List.foldr_cons, ih (fun x hx => h x (List.mem_cons_of_mem _ hx)), Nat.ofDigits_cons,
          digitCh_toNat (h d List.mem_cons_self)]
        simp
        omega
    rw [key _ (fun d hd => Nat.digits_lt_base (by norm_num) hd), Nat.ofDigits_digits]

theorem frac6_dig (m : ℕ) : ∀ c ∈ frac6 m, isDig c = true := by
  intro c hc
  unfold frac6 at hc
  simp only [List.mem_cons, List.not_mem_nil, or_false] at hc
  rcases hc with rfl | rfl | rfl | rfl | rfl | rfl <;> exact digitCh_dig (by omega)

theorem evalDigits_frac6 {m : ℕ} (h : m < 1000000) : evalDigits (frac6 m) = m := by
  unfold evalDigits frac6
  simp only [List.foldl_cons, List.foldl_nil]
  rw [digitCh_toNat (show m / 100000 % 10 < 10 by omega), digitCh_toNat (show m / 10000 % 10 < 10 by omega),
    digitCh_toNat (show m / 1000 % 10 < 10 by omega), digitCh_toNat (show m / 100 % 10 < 10 by omega),
    digitCh_toNat (show m / 10 % 10 < 10 by omega), digitCh_toNat (show m % 10 < 10 by omega)]
  omega

theorem takeWhile_point {a b : Str} (h : ∀ c ∈ a, c ≠ '.') :
    (a ++ '.' :: b).takeWhile (fun c => decide (c ≠ '.')) = a ∧
    (a ++ '.' :: b).dropWhile (fun c => decide (c ≠ '.')) = '.' :: b := by
  induction a with
  | nil => simp
  | cons c a ih =>
    have hc : c ≠ '.' := h c List.mem_cons_self
    obtain ⟨h1, h2⟩ := ih (fun x hx => h x (List.mem_cons_of_mem _ hx))
    rw [List.cons_append, List.takeWhile_cons_of_pos (by simpa using hc), List.dropWhile_cons_of_pos (by simpa using hc)]
    exact ⟨by rw [h1], h2⟩

theorem parseUnsigned_fixed (N : ℕ) : parseUnsigned (fixed N) = some ((N : ℝ) / 1000000) := by
  unfold parseUnsigned fixed
  obtain ⟨h1, h2⟩ := takeWhile_point (a := natDigits (N / 1000000)) (b := frac6 (N % 1000000))
    (fun c hc => (isDig_ne ((natDigits_dig _).2 c hc)).1)
  simp only [h1, h2, List.tail_cons]
  rw [if_pos ⟨(natDigits_dig _).1, List.all_eq_true.2 (natDigits_dig _).2, List.all_eq_true.2 (frac6_dig _)⟩,
    evalDigits_natDigits, evalDigits_frac6 (Nat.mod_lt _ (by norm_num))]
  congr 1
  have hl : (frac6 (N % 1000000)).length = 6 := rfl
  rw [hl]
  have : N / 1000000 * 10 ^ 6 + N % 1000000 = N := by omega
  rw [this]
  norm_num

theorem parseDec_fmtDec (x : ℝ) :
    parseDec (fmtDec x) = some ((if x < 0 then -1 else 1) * ((millionths x : ℝ) / 1000000)) := by
  unfold fmtDec
  by_cases hx : x < 0
  · rw [if_pos hx, if_pos hx]
    simp only [List.singleton_append, parseDec, if_true]
    rw [parseUnsigned_fixed]
    simp
  · rw [if_neg hx, if_neg hx, List.nil_append]
    have hne : fixed (millionths x) ≠ [] := by simp [fixed]
    obtain ⟨c, t, hct⟩ := List.exists_cons_of_ne_nil hne
    have hc : c ≠ '-' := by
      unfold fixed at hct
      obtain ⟨c', t', hct'⟩ := List.exists_cons_of_ne_nil (natDigits_dig (millionths x / 1000000)).1
      rw [hct', List.cons_append] at hct
      injection hct with hct
      subst hct
      exact (isDig_ne ((natDigits_dig (millionths x / 1000000)).2 _ (by rw [hct']; simp))).2.1
    have := parseUnsigned_fixed (millionths x)
    rw [hct] at this ⊢
    simp only [parseDec, if_neg hc]
    rw [this]
    simp

theorem fmtDec_word (x : ℝ) : IsWord (fmtDec x) := by
  unfold fmtDec fixed
  constructor
  · simp
  · intro c hc
    rw [List.mem_append, List.mem_append, List.mem_cons] at hc
    rcases hc with hc | hc | hc | hc
    · split at hc
      · rw [List.mem_singleton] at hc; subst hc; decide
      · simp at hc
    · exact (isDig_ne ((natDigits_dig _).2 c hc)).2.2
    · subst hc; decide
    · exact (isDig_ne (frac6_dig _ c hc)).2.2

theorem millionths_bound (x : ℝ) : |(millionths x : ℝ) - |x| * 1000000| ≤ 1 / 2 := by
  unfold millionths
  have h0 : (0 : ℝ) ≤ |x| * 1000000 + 1 / 2 := by positivity
  have h1 := Nat.floor_le h0
  have h2 := Nat.lt_floor_add_one (|x| * 1000000 + 1 / 2)
  rw [abs_le]
  constructor <;> linarith

theorem viaDec_bound (x : ℝ) : ∃ y, parseDec (fmtDec x) = some y ∧ |y - x| ≤ 1 / 2000000 := by
  refine ⟨_, parseDec_fmtDec x, ?_⟩
  have h := abs_le.1 (millionths_bound x)
  rw [abs_le]
  by_cases hx : x < 0
  · rw [if_pos hx]
    rw [abs_of_neg hx] at h
    constructor <;> linarith [h.1, h.2]
  · rw [if_neg hx]
    rw [abs_of_nonneg (not_lt.1 hx)] at h
    constructor <;> linarith [h.1, h.2]

theorem fmtDec_small {x : ℝ} (h : |x| < 1 / 2000000) : parseDec (fmtDec x) = some 0 := by
  rw [parseDec_fmtDec]
  have : millionths x = 0 := by
    unfold millionths
    rw [Nat.floor_eq_zero]
    linarith
  rw [this]
  simp

/-- Multiples of one millionth are printed exactly. -/
theorem fmtDec_exact {x : ℝ} (h : ∃ k : ℤ, x = k / 1000000) : parseDec (fmtDec x) = some x := by
  obtain ⟨k, rfl⟩ := h
  rw [parseDec_fmtDec]
  have hm : millionths ((k : ℝ) / 1000000) = k.natAbs := by
    unfold millionths
    have : |(k : ℝ) / 1000000| * 1000000 = (k.natAbs : ℝ) := by
      rw [abs_div, abs_of_pos (show (0 : ℝ) < 1000000 by norm_num), div_mul_cancel₀ _ (by norm_num),
        Nat.cast_natAbs, Int.cast_abs]
    rw [this, Nat.floor_eq_iff (by positivity)]
    constructor <;> linarith
  rw [hm]
  congr 1
  rw [Nat.cast_natAbs, Int.cast_abs]
  by_cases hk : (k : ℝ) / 1000000 < 0
  · have hk' : (k : ℝ) < 0 := by
      by_contra hc
      have : (0 : ℝ) ≤ (k : ℝ) / 1000000 := div_nonneg (not_lt.1 hc) (by norm_num)
      linarith
    rw [if_pos hk, abs_of_neg hk']
    ring
  · have hk' : (0 : ℝ) ≤ (k : ℝ) := by
      by_contra hc
      exact hk (div_neg_of_neg_of_pos (not_le.1 hc) (by norm_num))
    rw [if_neg hk, abs_of_nonneg hk']
    ring

/-- The assumptions on number formatting can be met: the decimal format on the multiples of one millionth. -/
theorem decIO_laws : decIO.Laws {x | ∃ k : ℤ, x = k / 1000000} where
  repr_word x _ := fmtDec_word x
  repr_parse x hx := fmtDec_exact hx
  fmtF_word x _ := fmtDec_word x
  fmtF_parse x _ := by
    obtain ⟨y, h1, h2⟩ := viaDec_bound x
    exact ⟨y, h1, h2.trans (by norm_num)⟩
  fmtF_small x _ h := fmtDec_small h

end Dissect
