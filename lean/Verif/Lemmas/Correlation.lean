import Verif.Spec.Correlation
import Mathlib.Tactic.Linarith
import Mathlib.Tactic.Ring
import Mathlib.Tactic.FieldSimp
import Mathlib.Tactic.Positivity
import Mathlib.Algebra.BigOperators.Group.List.Lemmas
import Mathlib.Algebra.Order.BigOperators.Group.List

/-! # Lemmas about correlation coefficients -/

namespace Dissect
noncomputable section

/-! ### Sums of squares -/

theorem sumMap_add {α : Type} (l : List α) (f g : α → ℝ) : (l.map (fun x => f x + g x)).sum = (l.map f).sum + (l.map g).sum := by
  induction l with
  | nil => simp
  | cons a l ih => simp only [List.map_cons, List.sum_cons, ih]; ring

theorem sumMap_mul {α : Type} (c : ℝ) (l : List α) (f : α → ℝ) : (l.map (fun x => c * f x)).sum = c * (l.map f).sum := by
  induction l with
  | nil => simp
  | cons a l ih => simp only [List.map_cons, List.sum_cons, ih]; ring

theorem sumMap_const {α : Type} (c : ℝ) (l : List α) : (l.map (fun _ => c)).sum = (l.length : ℝ) * c := by
  induction l with
  | nil => simp
  | cons a l ih => simp only [List.map_cons, List.sum_cons, ih, List.length_cons]; push_cast; ring

theorem sumMap_nonneg {α : Type} {l : List α} {f : α → ℝ} (h : ∀ x ∈ l, 0 ≤ f x) : 0 ≤ (l.map f).sum := by
  induction l with
  | nil => simp
  | cons a l ih =>
    rw [List.map_cons, List.sum_cons]
    exact add_nonneg (h a (by simp)) (ih (fun x hx => h x (by simp [hx])))

theorem sumMap_eq_zero {α : Type} {l : List α} {f : α → ℝ} (h : ∀ x ∈ l, 0 ≤ f x) (h0 : (l.map f).sum = 0) : ∀ x ∈ l, f x = 0 := by
  induction l with
  | nil => simp
  | cons a l ih =>
    rw [List.map_cons, List.sum_cons] at h0
    have h1 := h a (by simp)
    have h2 := sumMap_nonneg (l := l) (f := f) (fun x hx => h x (by simp [hx]))
    intro x hx
    rcases List.mem_cons.1 hx with rfl | hx
    · linarith
    · exact ih (fun x hx => h x (by simp [hx])) (by linarith) x hx

/-- The identity behind the Cauchy-Schwarz inequality. -/
theorem sumMap_cs {α : Type} (l : List α) (a b : α → ℝ) {A B C : ℝ} (hA : A = (l.map (fun x => a x * a x)).sum)
    (hB : B = (l.map (fun x => a x * b x)).sum) (hC : C = (l.map (fun x => b x * b x)).sum) :
    (l.map (fun x => (C * a x - B * b x) * (C * a x - B * b x))).sum = C * (C * A - B * B) := by
  have e : (fun x => (C * a x - B * b x) * (C * a x - B * b x)) =
      fun x => C * C * (a x * a x) + ((-2 * B * C) * (a x * b x) + B * B * (b x * b x)) := by
    funext x; ring
  rw [e, sumMap_add, sumMap_add, sumMap_mul, sumMap_mul, sumMap_mul, ← hA, ← hB, ← hC]
  ring

/-! ### Deviations -/

theorem mean_perm {x y : List ℝ} (h : x.Perm y) : mean x = mean y := by
  unfold mean; rw [h.sum_eq, h.length_eq]

theorem zip_self (x : List ℝ) : x.zip x = x.map (fun a => (a, a)) := by
  induction x with
  | nil => rfl
  | cons a x ih => rw [List.zip_cons_cons, ih]; rfl

theorem codeviation_self (x : List ℝ) : codeviation x x = (x.map (fun a => (a - mean x) * (a - mean x))).sum := by
  unfold codeviation
  rw [zip_self, List.map_map]
  rfl

theorem zip_fst {x y : List ℝ} (h : x.length = y.length) : (x.zip y).map Prod.fst = x := List.map_fst_zip (by omega)

theorem zip_snd {x y : List ℝ} (h : x.length = y.length) : (x.zip y).map Prod.snd = y := List.map_snd_zip (by omega)

theorem codeviation_left {x y : List ℝ} (h : x.length = y.length) :
    codeviation x x = ((x.zip y).map (fun p => (p.1 - mean x) * (p.1 - mean x))).sum := by
  rw [codeviation_self]
  conv_lhs => rw [← zip_fst h]
  rw [List.map_map, zip_fst h]
  rfl

theorem codeviation_right {x y : List ℝ} (h : x.length = y.length) :
    codeviation y y = ((x.zip y).map (fun p => (p.2 - mean y) * (p.2 - mean y))).sum := by
  rw [codeviation_self]
  conv_lhs => rw [← zip_snd h]
  rw [List.map_map, zip_snd h]
  rfl

theorem codeviation_comm {x y : List ℝ} : codeviation x y = codeviation y x := by
  unfold codeviation
  rw [← List.zip_swap y x, List.map_map]
  congr 1
  refine List.map_congr_left fun p _ => ?_
  simp only [Function.comp, Prod.swap]
  ring

theorem codeviation_self_nonneg (x : List ℝ) : 0 ≤ codeviation x x := by
  rw [codeviation_self]
  exact sumMap_nonneg fun a _ => mul_self_nonneg _

theorem codeviation_self_pos {x : List ℝ} (h : Varies x) : 0 < codeviation x x := by
  rcases (codeviation_self_nonneg x).lt_or_eq with h' | h'
  · exact h'
  · rw [codeviation_self] at h'
    have h0 := sumMap_eq_zero (fun a _ => mul_self_nonneg _) h'.symm
    obtain ⟨a, ha, b, hb, hab⟩ := h
    have h1 := mul_self_eq_zero.1 (h0 a ha)
    have h2 := mul_self_eq_zero.1 (h0 b hb)
    exact absurd (by linarith) hab

theorem codeviation_cs {x y : List ℝ} (h : x.length = y.length) :
    codeviation x y * codeviation x y ≤ codeviation x x * codeviation y y := by
  rcases (codeviation_self_nonneg y).lt_or_eq with hC | hC
  · have := sumMap_cs (x.zip y) (fun p => p.1 - mean x) (fun p => p.2 - mean y) (codeviation_left h) rfl (codeviation_right h)
    have h2 := sumMap_nonneg (l := x.zip y) (f := fun p => (codeviation y y * (p.1 - mean x) - codeviation x y * (p.2 - mean y)) *
      (codeviation y y * (p.1 - mean x) - codeviation x y * (p.2 - mean y))) (fun p _ => mul_self_nonneg _)
    have h3 : 0 ≤ codeviation y y * (codeviation y y * codeviation x x - codeviation x y * codeviation x y) := this ▸ h2
    have := nonneg_of_mul_nonneg_right h3 hC
    nlinarith
  · have hz := sumMap_eq_zero (fun p _ => mul_self_nonneg _) ((codeviation_right h).symm.trans hC.symm)
    have : codeviation x y = 0 := by
      unfold codeviation
      rw [List.map_congr_left (g := fun _ => (0 : ℝ)) (fun p hp => by
        have : p.2 - mean y = 0 := mul_self_eq_zero.1 (hz p hp)
        rw [this, mul_zero])]
      rw [sumMap_const, mul_zero]
    rw [this, ← hC]
    simp

theorem pearsonR_comm (x y : List ℝ) : pearsonR x y = pearsonR y x := by
  unfold pearsonR; rw [codeviation_comm, mul_comm (codeviation x x)]

theorem pearsonR_range {x y : List ℝ} (h : x.length = y.length) : -1 ≤ pearsonR x y ∧ pearsonR x y ≤ 1 := by
  rw [← abs_le]
  unfold pearsonR
  rw [abs_div, abs_of_nonneg (Real.sqrt_nonneg _)]
  apply div_le_one_of_le₀ _ (Real.sqrt_nonneg _)
  apply Real.abs_le_sqrt
  rw [sq]
  exact codeviation_cs h

theorem codeviation_perm {x y x' y' : List ℝ} (h : x.length = y.length) (h' : x'.length = y'.length)
    (hp : (x.zip y).Perm (x'.zip y')) : codeviation x y = codeviation x' y' ∧ codeviation x x = codeviation x' x' ∧
      codeviation y y = codeviation y' y' := by
  have hx : x.Perm x' := by have := hp.map Prod.fst; rwa [zip_fst h, zip_fst h'] at this
  have hy : y.Perm y' := by have := hp.map Prod.snd; rwa [zip_snd h, zip_snd h'] at this
  refine ⟨?_, ?_, ?_⟩
  · unfold codeviation; rw [mean_perm hx, mean_perm hy]; exact (hp.map _).sum_eq
  · rw [codeviation_self, codeviation_self, mean_perm hx]; exact (hx.map _).sum_eq
  · rw [codeviation_self, codeviation_self, mean_perm hy]; exact (hy.map _).sum_eq

theorem pearsonR_perm {x y x' y' : List ℝ} (h : x.length = y.length) (h' : x'.length = y'.length)
    (hp : (x.zip y).Perm (x'.zip y')) : pearsonR x y = pearsonR x' y' := by
  obtain ⟨h1, h2, h3⟩ := codeviation_perm h h' hp
  unfold pearsonR
  rw [h1, h2, h3]

theorem mean_affine {x : List ℝ} (hx : x ≠ []) (a b : ℝ) : mean (x.map (fun t => a * t + b)) = a * mean x + b := by
  unfold mean
  have hn : (x.length : ℝ) ≠ 0 := by
    rw [Nat.cast_ne_zero]
    exact fun h => hx (List.length_eq_zero_iff.1 h)
  rw [List.length_map, sumMap_add, sumMap_mul, sumMap_const, List.map_id']
  field_simp

theorem codeviation_affine {x y : List ℝ} (hy : y ≠ []) (a b : ℝ) :
    codeviation x (y.map (fun t => a * t + b)) = a * codeviation x y := by
  unfold codeviation
  rw [mean_affine hy, List.zip_map_right, List.map_map, ← sumMap_mul]
  congr 1
  refine List.map_congr_left fun p _ => ?_
  simp only [Function.comp, Prod.map]
  simp only [id]
  ring

theorem codeviation_affine_self {y : List ℝ} (hy : y ≠ []) (a b : ℝ) :
    codeviation (y.map (fun t => a * t + b)) (y.map (fun t => a * t + b)) = a * a * codeviation y y := by
  rw [codeviation_affine hy, codeviation_comm, codeviation_affine hy]
  ring

theorem pearsonR_affine {x y : List ℝ} (hy : y ≠ []) {a : ℝ} (ha : a ≠ 0) (b : ℝ) :
    pearsonR x (y.map (fun t => a * t + b)) = a / |a| * pearsonR x y := by
  unfold pearsonR
  rw [codeviation_affine hy, codeviation_affine_self hy]
  have e : codeviation x x * (a * a * codeviation y y) = (a * a) * (codeviation x x * codeviation y y) := by ring
  rw [e, Real.sqrt_mul (mul_self_nonneg a), Real.sqrt_mul_self_eq_abs]
  rw [mul_div_mul_comm]

theorem pearsonR_self {x : List ℝ} (h : Varies x) : pearsonR x x = 1 := by
  unfold pearsonR
  rw [Real.sqrt_mul_self (codeviation_self_nonneg x)]
  exact div_self (codeviation_self_pos h).ne'

theorem Varies.ne_nil {x : List ℝ} (h : Varies x) : x ≠ [] := by
  obtain ⟨a, ha, -⟩ := h
  rintro rfl
  cases ha

/-- Perfect correlation: the values of one list are a positive multiple of those of the other plus a constant. -/
theorem pearsonR_eq_one {x y : List ℝ} (h : x.length = y.length) (hx : Varies x) (hy : Varies y) :
    pearsonR x y = 1 ↔ ∃ a b : ℝ, 0 < a ∧ y = x.map (fun t => a * t + b) := by
  constructor
  · intro hr
    have px := codeviation_self_pos hx
    have py := codeviation_self_pos hy
    have hs : 0 < Real.sqrt (codeviation x x * codeviation y y) := Real.sqrt_pos.2 (mul_pos px py)
    have hB : codeviation x y = Real.sqrt (codeviation x x * codeviation y y) := by
      unfold pearsonR at hr
      exact (div_eq_one_iff_eq hs.ne').1 hr
    have hBB : codeviation x y * codeviation x y = codeviation x x * codeviation y y := by
      rw [hB, Real.mul_self_sqrt (mul_pos px py).le]
    have hBpos : 0 < codeviation x y := hB ▸ hs
    have key := sumMap_cs (x.zip y) (fun p => p.1 - mean x) (fun p => p.2 - mean y) (codeviation_left h) rfl (codeviation_right h)
    have hz : codeviation y y * (codeviation y y * codeviation x x -
        ((x.zip y).map (fun p => (p.1 - mean x) * (p.2 - mean y))).sum * ((x.zip y).map (fun p => (p.1 - mean x) * (p.2 - mean y))).sum) = 0 := by
      have : ((x.zip y).map (fun p => (p.1 - mean x) * (p.2 - mean y))).sum = codeviation x y := rfl
      rw [this, hBB]; ring
    rw [hz] at key
    have hall := sumMap_eq_zero (fun p _ => mul_self_nonneg _) key
    have hall' : ∀ p ∈ x.zip y, p.2 = codeviation y y / codeviation x y * p.1 +
        (mean y - codeviation y y / codeviation x y * mean x) := by
      intro p hp
      have e := mul_self_eq_zero.1 (hall p hp)
      have e' : codeviation y y * (p.1 - mean x) - codeviation x y * (p.2 - mean y) = 0 := e
      field_simp
      linarith
    refine ⟨codeviation y y / codeviation x y, mean y - codeviation y y / codeviation x y * mean x, div_pos py hBpos, ?_⟩
    generalize codeviation y y / codeviation x y = a at hall' ⊢
    generalize mean y - a * mean x = b at hall' ⊢
    have e1 : (x.zip y).map Prod.snd = ((x.zip y).map Prod.fst).map (fun t => a * t + b) := by
      rw [List.map_map]
      exact List.map_congr_left hall'
    rwa [zip_snd h, zip_fst h] at e1
  · rintro ⟨a, b, ha, rfl⟩
    rw [pearsonR_affine hx.ne_nil ha.ne', pearsonR_self hx, abs_of_pos ha, div_self ha.ne', one_mul]

/-! ### Ranks -/

theorem rankIn_perm {l l' : List ℝ} (h : l.Perm l') (x : ℝ) : rankIn l x = rankIn l' x := by
  unfold rankIn
  rw [(h.filter _).length_eq, (h.filter (fun y => decide (y = x))).length_eq]

/-- A predicate on lists of counts: values below, equal, above. -/
theorem count_split (l : List ℝ) (x : ℝ) : (l.filter (fun y => decide (y < x))).length +
    (l.filter (fun y => decide (y = x))).length + (l.filter (fun y => decide (x < y))).length = l.length := by
  induction l with
  | nil => rfl
  | cons a l ih =>
    rcases lt_trichotomy a x with h | h | h
    · have h1 : ¬ a = x := h.ne
      have h2 : ¬ x < a := not_lt.2 h.le
      simp [List.filter_cons, h, h1, h2]; omega
    · subst h
      simp [List.filter_cons]; omega
    · have h1 : ¬ a = x := h.ne'
      have h2 : ¬ a < x := not_lt.2 h.le
      simp [List.filter_cons, h, h1, h2]; omega

theorem count_le {l : List ℝ} {a b : ℝ} (h : a < b) : (l.filter (fun y => decide (y < a))).length +
    (l.filter (fun y => decide (y = a))).length ≤ (l.filter (fun y => decide (y < b))).length := by
  induction l with
  | nil => simp
  | cons c l ih =>
    rcases lt_trichotomy c a with h1 | h1 | h1
    · have h2 : ¬ c = a := h1.ne
      have h3 : c < b := h1.trans h
      simp [List.filter_cons, h1, h2, h3]; omega
    · subst h1
      simp [List.filter_cons, h]; omega
    · have h2 : ¬ c = a := h1.ne'
      have h3 : ¬ c < a := not_lt.2 h1.le
      simp only [List.filter_cons, h2, h3, decide_false, Bool.false_eq_true, if_false]
      split
      · rw [List.length_cons]; omega
      · exact ih

theorem count_pos {l : List ℝ} {a : ℝ} (h : a ∈ l) : 1 ≤ (l.filter (fun y => decide (y = a))).length :=
  List.length_pos_iff.2 (List.ne_nil_of_mem (List.mem_filter.2 ⟨h, by simp⟩))

theorem rankIn_lt {l : List ℝ} {a b : ℝ} (ha : a ∈ l) (hb : b ∈ l) (h : a < b) : rankIn l a < rankIn l b := by
  unfold rankIn
  have h1 : (((l.filter (fun y => decide (y < a))).length : ℕ) : ℝ) + ((l.filter (fun y => decide (y = a))).length : ℕ) ≤
      ((l.filter (fun y => decide (y < b))).length : ℕ) := by exact_mod_cast count_le h
  have h2 : (1 : ℝ) ≤ ((l.filter (fun y => decide (y = a))).length : ℕ) := by exact_mod_cast count_pos ha
  have h3 : (1 : ℝ) ≤ ((l.filter (fun y => decide (y = b))).length : ℕ) := by exact_mod_cast count_pos hb
  linarith

theorem rankIn_lt_iff {l : List ℝ} {a b : ℝ} (ha : a ∈ l) (hb : b ∈ l) : rankIn l a < rankIn l b ↔ a < b := by
  constructor
  · intro h
    rcases lt_trichotomy a b with h1 | h1 | h1
    · exact h1
    · subst h1; exact absurd h (lt_irrefl _)
    · exact absurd h (not_lt.2 (rankIn_lt hb ha h1).le)
  · exact rankIn_lt ha hb

theorem ranks_varies {l : List ℝ} (h : Varies l) : Varies (ranks l) := by
  obtain ⟨a, ha, b, hb, hab⟩ := h
  refine ⟨_, List.mem_map.2 ⟨a, ha, rfl⟩, _, List.mem_map.2 ⟨b, hb, rfl⟩, ?_⟩
  rcases lt_or_gt_of_ne hab with h | h
  · exact (rankIn_lt ha hb h).ne
  · exact (rankIn_lt hb ha h).ne'

theorem ranks_length (l : List ℝ) : (ranks l).length = l.length := List.length_map _

theorem ranks_mono {l : List ℝ} {f : ℝ → ℝ} (hf : StrictMono f) : ranks (l.map f) = ranks l := by
  unfold ranks
  rw [List.map_map]
  refine List.map_congr_left fun x _ => ?_
  simp only [Function.comp, rankIn, List.filter_map, List.length_map]
  have e1 : l.filter ((fun y => decide (y < f x)) ∘ f) = l.filter (fun y => decide (y < x)) :=
    List.filter_congr fun y _ => by simp [Function.comp, hf.lt_iff_lt]
  have e2 : l.filter ((fun y => decide (y = f x)) ∘ f) = l.filter (fun y => decide (y = x)) :=
    List.filter_congr fun y _ => by simp [Function.comp, hf.injective.eq_iff]
  rw [e1, e2]

theorem ranks_anti {l : List ℝ} {f : ℝ → ℝ} (hf : StrictAnti f) :
    ranks (l.map f) = (ranks l).map (fun t => (-1) * t + ((l.length : ℝ) + 1)) := by
  unfold ranks
  rw [List.map_map, List.map_map]
  refine List.map_congr_left fun x _ => ?_
  simp only [Function.comp, rankIn, List.filter_map, List.length_map]
  have e1 : l.filter ((fun y => decide (y < f x)) ∘ f) = l.filter (fun y => decide (x < y)) :=
    List.filter_congr fun y _ => by simp [Function.comp, hf.lt_iff_gt]
  have e2 : l.filter ((fun y => decide (y = f x)) ∘ f) = l.filter (fun y => decide (y = x)) :=
    List.filter_congr fun y _ => by simp [Function.comp, hf.injective.eq_iff]
  rw [e1, e2]
  have := congrArg (Nat.cast (R := ℝ)) (count_split l x)
  push_cast at this
  linarith

theorem zip_ranks_perm {x y x' y' : List ℝ} (h : x.length = y.length) (h' : x'.length = y'.length)
    (hp : (x.zip y).Perm (x'.zip y')) : ((ranks x).zip (ranks y)).Perm ((ranks x').zip (ranks y')) := by
  have hx : x.Perm x' := by have := hp.map Prod.fst; rwa [zip_fst h, zip_fst h'] at this
  have hy : y.Perm y' := by have := hp.map Prod.snd; rwa [zip_snd h, zip_snd h'] at this
  have e : ∀ x y : List ℝ, (ranks x).zip (ranks y) = (x.zip y).map (fun p => (rankIn x p.1, rankIn y p.2)) := by
    intro x y
    unfold ranks
    rw [List.zip_map]
    rfl
  rw [e, e]
  have e2 : (fun p : ℝ × ℝ => (rankIn x p.1, rankIn y p.2)) = fun p => (rankIn x' p.1, rankIn y' p.2) := by
    funext p
    rw [rankIn_perm hx, rankIn_perm hy]
  rw [e2]
  exact hp.map _

end
end Dissect
