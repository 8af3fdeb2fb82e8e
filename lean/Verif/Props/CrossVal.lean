import Verif.Model.Scoring
import Verif.Spec.Scoring
import Verif.Lemmas.Matrix
import Verif.Lemmas.Space

/-! # Cross validation folds: C64 -/

namespace Dissect

/-- Position reached before iteration `a`. -/
def foldPos (q r a : ℕ) : ℕ := a * q + min a r

theorem foldPos_succ (q r a : ℕ) : foldPos q r (a + 1) = foldPos q r a + if a < r then q + 1 else q := by
  unfold foldPos
  split
  · rw [min_eq_left (by omega), min_eq_left (by omega)]; ring
  · rw [min_eq_right (by omega), min_eq_right (by omega)]; ring

theorem foldPos_le {n fold a : ℕ} (hf : 0 < fold) (ha : a ≤ fold) : foldPos (n / fold) (n % fold) a ≤ n := by
  unfold foldPos
  have h := Nat.div_add_mod n fold
  have : a * (n / fold) ≤ fold * (n / fold) := Nat.mul_le_mul_right _ ha
  have : min a (n % fold) ≤ n % fold := min_le_right _ _
  omega

theorem splitLoop_spec {rng : List ℕ} {n fold : ℕ} (hr : rng.length = n) (hf : 0 < fold) : ∀ k a, a + k = fold →
    (splitLoop rng n fold (List.range' a k) (foldPos (n / fold) (n % fold) a)).flatten
      = rng.drop (foldPos (n / fold) (n % fold) a) ∧
    (splitLoop rng n fold (List.range' a k) (foldPos (n / fold) (n % fold) a)).length = k ∧
    ∀ l ∈ splitLoop rng n fold (List.range' a k) (foldPos (n / fold) (n % fold) a),
      l.length = n / fold ∨ l.length = n / fold + 1 := by
  intro k
  induction k with
  | zero =>
    intro a ha
    have : foldPos (n / fold) (n % fold) a = n := by
      have h := Nat.div_add_mod n fold
      have h2 := Nat.mod_lt n hf
      have : a = fold := by omega
      subst this
      unfold foldPos
      rw [min_eq_right (by omega)]
      omega
    rw [this]
    simp [splitLoop, hr]
  | succ k ih =>
    intro a ha
    obtain ⟨h1, h2, h3⟩ := ih (a + 1) (by omega)
    have hs : List.range' a (k + 1) = a :: List.range' (a + 1) k := List.range'_succ
    rw [hs]
    unfold splitLoop
    rw [hr]
    simp only []
    rw [← foldPos_succ]
    have hle : foldPos (n / fold) (n % fold) (a + 1) ≤ n := foldPos_le hf (by omega)
    have hsucc := foldPos_succ (n / fold) (n % fold) a
    refine ⟨?_, by rw [List.length_cons, h2], ?_⟩
    · rw [List.flatten_cons, h1]
      unfold pySlice
      have hmono : foldPos (n / fold) (n % fold) a ≤ foldPos (n / fold) (n % fold) (a + 1) := by rw [hsucc]; omega
      have e : rng.drop (foldPos (n / fold) (n % fold) (a + 1)) =
          (rng.drop (foldPos (n / fold) (n % fold) a)).drop
            (foldPos (n / fold) (n % fold) (a + 1) - foldPos (n / fold) (n % fold) a) := by
        rw [List.drop_drop]
        congr 1
        omega
      rw [e, List.take_append_drop]
    · intro l hl
      rcases List.mem_cons.1 hl with rfl | hl
      · unfold pySlice
        rw [List.length_take, List.length_drop, hr]
        generalize n / fold = q at *
        generalize foldPos q (n % fold) (a + 1) = p1 at *
        generalize foldPos q (n % fold) a = p0 at *
        split at hsucc <;> omega
      · exact h3 l hl

theorem splitPos_spec {shuffle : List ℕ → List ℕ} (hsh : ∀ l, (shuffle l).Perm l) {n fold : ℕ} (hf : 0 < fold) :
    IsPartition n (splitPos shuffle n fold) ∧ (splitPos shuffle n fold).length = fold ∧
    Balanced (splitPos shuffle n fold) ∧ ∀ l ∈ splitPos shuffle n fold, n / fold ≤ l.length := by
  have hr : (shuffle (List.range n)).length = n := by rw [(hsh _).length_eq, List.length_range]
  obtain ⟨h1, h2, h3⟩ := splitLoop_spec (rng := shuffle (List.range n)) hr hf fold 0 (by omega)
  have h0 : foldPos (n / fold) (n % fold) 0 = 0 := by simp [foldPos]
  rw [h0, ← List.range_eq_range'] at h1 h2 h3
  refine ⟨?_, h2, ?_, ?_⟩
  · unfold IsPartition splitPos
    rw [h1, List.drop_zero]
    exact hsh _
  · intro a ha b hb
    rcases h3 a ha with h | h <;> rcases h3 b hb with h' | h' <;> omega
  · intro l hl
    rcases h3 l hl with h | h <;> omega

/-- **C64** For `n ≥ 1` items and `fold ≥ 1`, whatever the shuffle, the result consists of `min(fold, n)` non-empty lists
that partition `0 .. n-1` and whose lengths differ by at most one. -/
theorem C64_balanced_partition {shuffle : List ℕ → List ℕ} (hsh : ∀ l, (shuffle l).Perm l) {n fold : ℤ} (hn : 1 ≤ n)
    (hf : 1 ≤ fold) :
    ∃ folds, getSplitIndices shuffle n fold = .ok folds ∧ (folds.length : ℤ) = min fold n ∧
      IsPartition n.toNat folds ∧ Balanced folds ∧ ∀ l ∈ folds, l ≠ [] := by
  unfold getSplitIndices
  rw [if_neg (by omega)]
  have key : ∀ f : ℕ, 0 < f → f ≤ n.toNat → ∀ l ∈ splitPos shuffle n.toNat f, l ≠ [] := by
    intro f hf hle l hl
    have := (splitPos_spec hsh (n := n.toNat) hf).2.2.2 l hl
    have hpos : 0 < n.toNat / f := Nat.div_pos hle hf
    rw [← List.length_pos_iff]
    omega
  by_cases h : n < fold
  · rw [if_pos h, if_neg (by omega)]
    obtain ⟨h1, h2, h3, _⟩ := splitPos_spec hsh (n := n.toNat) (fold := n.toNat) (by omega)
    exact ⟨_, rfl, by rw [h2, min_eq_right (by omega)]; omega, h1, h3, key _ (by omega) le_rfl⟩
  · rw [if_neg h]
    obtain ⟨h1, h2, h3, _⟩ := splitPos_spec hsh (n := n.toNat) (fold := fold.toNat) (by omega)
    exact ⟨_, rfl, by rw [h2, min_eq_left (by omega)]; omega, h1, h3, key _ (by omega) (by omega)⟩

/-- **C64** `fold ≤ 0`, or no items, raises `ValueError`. -/
theorem C64_errors (shuffle : List ℕ → List ℕ) (n fold : ℤ) (h : fold ≤ 0 ∨ n ≤ 0) :
    getSplitIndices shuffle n fold = .error .valueError := by
  unfold getSplitIndices
  split
  · rfl
  · rw [if_pos (by omega), if_pos (by omega)]

/-- A shuffle: reversing the list. -/
example : ∀ l : List ℕ, (List.reverse l).Perm l := List.reverse_perm

example : getSplitIndices List.reverse 7 3 = .ok [[6, 5, 4], [3, 2], [1, 0]] := by decide
example : getSplitIndices List.reverse 2 5 = .ok [[1], [0]] := by decide

theorem normIdx_cast {n : ℕ} : ∀ {is : List ℕ}, (∀ i ∈ is, i < n) →
    TMat.normIdx n (is.map Int.ofNat) = .ok is := by
  intro is
  induction is with
  | nil => intro _; rfl
  | cons i is ih =>
    intro h
    rw [List.map_cons, TMat.normIdx, Int.ofNat_eq_natCast, pyIdx_nat (h i (by simp))]
    simp only []
    rw [ih (fun j hj => h j (by simp [hj]))]

/-- **C64** `get_submatrix_list` applied to the folds of the row numbers of a matrix gives one sub-matrix per fold, whose
`k`-th row is the row of the matrix with the `k`-th number of the fold. -/
theorem C64_submatrices {shuffle : List ℕ → List ℕ} (hsh : ∀ l, (shuffle l).Perm l) {m : TMat ℝ} {fold : ℤ}
    {folds : List (List ℕ)} (h : getSplitIndices shuffle (m.nr : ℤ) fold = .ok folds) (hc : 0 < m.nc) :
    ∃ subs, getSubmatrixList m folds = .ok subs ∧ subs.length = folds.length ∧
      ∀ (f : ℕ) (is : List ℕ), folds[f]? = some is → ∃ sub : TMat ℝ, subs[f]? = some sub ∧ sub.ty = m.ty ∧ sub.nr = is.length ∧ sub.nc = m.nc ∧
        ∀ (k i : ℕ), is[k]? = some i → i < m.nr ∧ ∀ j, sub.val.get k j = m.val.get i j := by
  by_cases hok : fold ≤ 0 ∨ (m.nr : ℤ) ≤ 0
  · rw [C64_errors _ _ _ hok] at h; cases h
  · simp only [not_or, not_le] at hok
    obtain ⟨folds', h1, hl1, h2, hb1, h3⟩ := C64_balanced_partition hsh (n := (m.nr : ℤ)) (fold := fold) (by omega) (by omega)
    rw [h1] at h
    injection h with h
    subst h
    have hlt : ∀ is ∈ folds', ∀ i ∈ is, i < m.nr := by
      intro is his i hi
      have : i ∈ folds'.flatten := List.mem_flatten.2 ⟨is, his, hi⟩
      have := h2.mem_iff.1 this
      simpa using this
    clear h1 h2 hl1 hb1
    induction folds' with
    | nil => exact ⟨[], rfl, rfl, by simp⟩
    | cons is rest ih =>
      obtain ⟨subs, g1, g2, g3⟩ := ih (fun l hl => h3 l (by simp [hl])) (fun l hl => hlt l (by simp [hl]))
      have hlen : 0 < is.length := List.length_pos_iff.2 (h3 is (by simp))
      have hw : m.getRows (is.map Int.ofNat) = .ok ⟨m.ty, m.val.selRows is⟩ := by
        unfold TMat.getRows
        rw [normIdx_cast (hlt is (by simp))]
        simp only [TMat.wrap]
        cases m.ty with
        | sparse => rfl
        | dense =>
          simp only []
          rw [if_neg]
          simp only [Mat.selRows, Mat.of_nr, Mat.of_nc]
          simp only [TMat.nc] at hc
          omega
      refine ⟨⟨m.ty, m.val.selRows is⟩ :: subs, ?_, by rw [List.length_cons, List.length_cons, g2], ?_⟩
      · rw [getSubmatrixList, hw, ok_bind, g1, ok_bind]; rfl
      · intro f js hf
        cases f with
        | zero =>
          simp only [List.getElem?_cons_zero, Option.some.injEq] at hf
          subst hf
          refine ⟨_, rfl, rfl, rfl, rfl, ?_⟩
          intro k i hki
          have hi := hlt is (by simp) i (List.mem_of_getElem? hki)
          refine ⟨hi, fun j => ?_⟩
          obtain ⟨hk, hki'⟩ := List.getElem?_eq_some_iff.1 hki
          by_cases hj : j < m.val.nc
          · simp only [Mat.selRows]
            simp [hki]
          · rw [Mat.get_col_oob _ _ (by simpa [Mat.selRows] using hj), Mat.get_col_oob _ _ (by omega)]
        | succ f =>
          simp only [List.getElem?_cons_succ] at hf ⊢
          exact g3 f js hf

end Dissect
