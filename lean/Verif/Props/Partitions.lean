import Verif.Model.SpaceUtils
import Verif.Lemmas.Py

/-! # C47: `get_partitions` -/

namespace Dissect
variable {κ : Type} [DecidableEq κ]

/-- Specification: `[b, e)` is a maximal run of equal elements of `l`. -/
structure MaxRun (l : List κ) (b e : ℕ) : Prop where
  lt : b < e
  le : e ≤ l.length
  same : ∀ i, b ≤ i → i < e → l[i]? = l[b]?
  left : b = 0 ∨ l[b - 1]? ≠ l[b]?
  right : e = l.length ∨ l[e]? ≠ l[b]?

/-- Loop invariant. -/
structure PartInv (l : List κ) (ms : ℤ) (prev i : ℕ) (acc : List (ℕ × ℕ)) : Prop where
  pos : prev < i
  le : i ≤ l.length
  same : ∀ k, prev ≤ k → k < i → l[k]? = l[prev]?
  left : prev = 0 ∨ l[prev - 1]? ≠ l[prev]?
  mem : ∀ b e, (b, e) ∈ acc ↔ MaxRun l b e ∧ e ≤ prev ∧ ms ≤ (e : ℤ) - (b : ℤ)
  sorted : acc.Pairwise (fun x y => x.2 ≤ y.1)

theorem partInv_last_run {l : List κ} {ms : ℤ} {prev i : ℕ} {acc : List (ℕ × ℕ)} (h : PartInv l ms prev i acc)
    {b e : ℕ} (hr : MaxRun l b e) (h1 : prev < e) (h2 : e ≤ i) : b = prev ∧ e = i := by
  have hs := hr.same
  have hb : b = prev := by
    rcases Nat.lt_trichotomy b prev with hlt | heq | hgt
    · exfalso
      rcases h.left with h0 | h0
      · omega
      · apply h0
        rw [hs (prev - 1) (by omega) (by omega), hs prev (by omega) h1]
    · exact heq
    · exfalso
      rcases hr.left with h0 | h0
      · omega
      · apply h0
        have hlt := hr.lt
        rw [h.same (b - 1) (by omega) (by omega), h.same b (by omega) (by omega)]
  refine ⟨hb, ?_⟩
  by_contra hne
  rcases hr.right with h0 | h0
  · have := h.le; omega
  · apply h0
    rw [hb]
    exact h.same e (by omega) (by omega)

/-- Closing the run `[prev, i)`. -/
theorem partInv_close {l : List κ} {ms : ℤ} {prev i : ℕ} {acc : List (ℕ × ℕ)} (h : PartInv l ms prev i acc)
    (hend : i = l.length ∨ l[i]? ≠ l[prev]?) :
    let acc' := if ms ≤ (i : ℤ) - (prev : ℤ) then acc ++ [(prev, i)] else acc
    (∀ b e, (b, e) ∈ acc' ↔ MaxRun l b e ∧ e ≤ i ∧ ms ≤ (e : ℤ) - (b : ℤ)) ∧ acc'.Pairwise (fun x y => x.2 ≤ y.1) := by
  intro acc'
  have hrun : MaxRun l prev i := ⟨h.pos, h.le, h.same, h.left, hend⟩
  have hle : ∀ x ∈ acc, x.2 ≤ prev := fun x hx => ((h.mem x.1 x.2).1 hx).2.1
  constructor
  · intro b e
    show (b, e) ∈ (if _ then _ else _) ↔ _
    split
    · rename_i hms
      rw [List.mem_append, h.mem, List.mem_singleton, Prod.mk.injEq]
      constructor
      · rintro (⟨h1, h2, h3⟩ | ⟨rfl, rfl⟩)
        · exact ⟨h1, by have := h.pos; omega, h3⟩
        · exact ⟨hrun, le_rfl, hms⟩
      · rintro ⟨h1, h2, h3⟩
        by_cases hp : e ≤ prev
        · exact Or.inl ⟨h1, hp, h3⟩
        · exact Or.inr (partInv_last_run h h1 (by omega) h2)
    · rename_i hms
      rw [h.mem]
      constructor
      · rintro ⟨h1, h2, h3⟩
        exact ⟨h1, by have := h.pos; omega, h3⟩
      · rintro ⟨h1, h2, h3⟩
        by_cases hp : e ≤ prev
        · exact ⟨h1, hp, h3⟩
        · obtain ⟨rfl, rfl⟩ := partInv_last_run h h1 (by omega) h2
          exact absurd h3 hms
  · show (if _ then _ else _ : List (ℕ × ℕ)).Pairwise _
    split
    · rw [List.pairwise_append]
      refine ⟨h.sorted, List.pairwise_singleton _ _, fun x hx y hy => ?_⟩
      rw [List.mem_singleton.1 hy]
      exact hle x hx
    · exact h.sorted

theorem partLoop_inv {l : List κ} {ms : ℤ} (rest : List κ) : ∀ {prev i : ℕ} {last : κ} {acc : List (ℕ × ℕ)},
    PartInv l ms prev i acc → l[prev]? = some last → l.drop i = rest →
    PartInv l ms (partLoop ms prev i last acc rest).2 l.length (partLoop ms prev i last acc rest).1 := by
  induction rest with
  | nil =>
    intro prev i last acc h _ hd
    have : i = l.length := by
      have := List.drop_eq_nil_iff.1 hd
      have := h.le
      omega
    subst this
    exact h
  | cons x xs ih =>
    intro prev i last acc h hlast hd
    have hi : l[i]? = some x := by
      have := congrArg (fun z => z[0]?) hd
      simpa using this
    have hlt : i < l.length := by
      by_contra hc
      rw [List.getElem?_eq_none (by omega)] at hi
      cases hi
    have hd' : l.drop (i + 1) = xs := by
      have := congrArg (List.drop 1) hd
      rw [List.drop_drop] at this
      simpa using this
    unfold partLoop
    split
    · rename_i hne
      have hclose := partInv_close h (Or.inr (by rw [hi, hlast]; simpa using hne))
      refine ih ⟨Nat.lt_succ_self i, hlt, fun k h1 h2 => ?_, ?_, ?_, hclose.2⟩ hi hd'
      · rw [show k = i by omega]
      · right
        have hpos := h.pos
        rw [h.same (i - 1) (by omega) (by omega), hlast, hi]
        intro hc
        exact hne (Option.some.inj hc).symm
      · exact hclose.1
    · rename_i hne
      have hx : x = last := not_not.1 hne
      subst hx
      refine ih ⟨by have := h.pos; omega, hlt, fun k h1 h2 => ?_, h.left, h.mem, h.sorted⟩ hlast hd'
      by_cases hk : k = i
      · rw [hk, hi, hlast]
      · exact h.same k h1 (by omega)

/-- **C47** for every list and every threshold of at least one, `get_partitions` succeeds; the ranges are exactly the
maximal runs of equal elements that are long enough, in order, and the keys are their elements. (On a list whose equal
elements are adjacent the runs are the classes of equal elements.) -/
theorem C47_maximal_runs (l : List κ) (ms : ℤ) (hms : 1 ≤ ms) :
    ∃ keys ranges, getPartitions l ms = .ok (keys, ranges) ∧
      (∀ b e, (b, e) ∈ ranges ↔ MaxRun l b e ∧ ms ≤ (e : ℤ) - (b : ℤ)) ∧
      ranges.Pairwise (fun x y => x.2 ≤ y.1) ∧
      keys.length = ranges.length ∧ ∀ (i : ℕ) (r : ℕ × ℕ) (k : κ), ranges[i]? = some r → keys[i]? = some k → l[r.1]? = some k := by
  have hkeys : ∀ rs : List (ℕ × ℕ), (∀ r ∈ rs, r.1 < l.length) → ∃ keys, rs.mapM (fun r => l[r.1]?) = some keys ∧
      keys.length = rs.length ∧ ∀ (i : ℕ) (r : ℕ × ℕ) (k : κ), rs[i]? = some r → keys[i]? = some k → l[r.1]? = some k := by
    intro rs
    induction rs with
    | nil => intro _; exact ⟨[], rfl, rfl, by simp⟩
    | cons r rs ih =>
      intro h
      obtain ⟨ks, h1, h2, h3⟩ := ih (fun x hx => h x (by simp [hx]))
      have hr := h r (by simp)
      refine ⟨l[r.1] :: ks, ?_, by simp [h2], ?_⟩
      · rw [List.mapM_cons, List.getElem?_eq_getElem hr, h1]
        rfl
      · intro i r' k hi hk
        cases i with
        | zero =>
          simp only [List.getElem?_cons_zero, Option.some.injEq] at hi hk
          rw [← hi, ← hk]
          exact List.getElem?_eq_getElem hr
        | succ i =>
          simp only [List.getElem?_cons_succ] at hi hk
          exact h3 i r' k hi hk
  cases l with
  | nil =>
    refine ⟨[], [], ?_, ?_, List.Pairwise.nil, rfl, by simp⟩
    · unfold getPartitions
      simp only [List.length_nil]
      rw [if_neg (by norm_num; omega)]
      rfl
    · intro b e
      simp only [List.not_mem_nil, false_iff, not_and]
      intro h
      have h1 := h.lt
      have h2 := h.le
      simp only [List.length_nil] at h2
      omega
  | cons x xs =>
    have hinv := partLoop_inv (l := x :: xs) (ms := ms) xs (prev := 0) (i := 1) (last := x) (acc := [])
      ⟨Nat.one_pos, by simp, fun k h1 h2 => by rw [show k = 0 by omega], Or.inl rfl, fun b e => by
        simp only [List.not_mem_nil, false_iff, not_and]
        intro h h0
        have := h.lt
        omega, List.Pairwise.nil⟩ rfl rfl
    obtain ⟨h1, h2⟩ := partInv_close hinv (Or.inl rfl)
    rcases hp : partLoop ms 0 1 x [] xs with ⟨acc, prev⟩
    rw [hp] at h1 h2 hinv
    simp only at h1 h2
    obtain ⟨keys, k1, k2, k3⟩ := hkeys _ (fun r hr => by
      have := ((h1 r.1 r.2).1 hr).1
      have h3 := this.lt
      have h4 := this.le
      omega)
    refine ⟨keys, _, ?_, fun b e => ?_, h2, k2, k3⟩
    · unfold getPartitions
      simp only [hp]
      rw [k1]
    · rw [h1]
      exact ⟨fun ⟨a, _, c⟩ => ⟨a, c⟩, fun ⟨a, c⟩ => ⟨a, a.le, c⟩⟩

/-- Non-vacuity of C47: a list with runs of lengths 2, 1, 3 and threshold 2. -/
example : getPartitions [5, 5, 6, 7, 7, 7] 2 = .ok ([5, 7], [(0, 2), (3, 6)]) := by decide

end Dissect
