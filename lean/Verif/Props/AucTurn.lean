import Verif.Props.Scoring

/-! # C162: the area under the ROC curve when predictions or classes are turned around -/

namespace Dissect
noncomputable section

/-- The fraction of (negative, positive) pairs with equal scores. -/
def tiedPairs (gold pred : List ℝ) : ℝ :=
  pairAverage (fun n p => if n = p then 1 else 0) (negScores gold pred) (posScores gold pred)

/-- The other class. -/
def otherClass (g : ℝ) : ℝ := 1 - g

theorem posScores_map (gold pred : List ℝ) (f : ℝ → ℝ) : posScores gold (pred.map f) = (posScores gold pred).map f := by
  unfold posScores
  rw [List.zip_map_right, List.filter_map, List.map_map, List.map_map]
  rfl

theorem negScores_map (gold pred : List ℝ) (f : ℝ → ℝ) : negScores gold (pred.map f) = (negScores gold pred).map f := by
  unfold negScores
  rw [List.zip_map_right, List.filter_map, List.map_map, List.map_map]
  rfl

theorem posScores_other (gold pred : List ℝ) : posScores (gold.map otherClass) pred = negScores gold pred := by
  unfold posScores negScores
  rw [List.zip_map_left, List.filter_map, List.map_map]
  have : ((fun p : ℝ × ℝ => decide (p.1 = 1)) ∘ Prod.map otherClass id) = fun p => decide (p.1 = 0) := by
    funext p
    simp [otherClass]
  rw [this]
  rfl

theorem negScores_other (gold pred : List ℝ) : negScores (gold.map otherClass) pred = posScores gold pred := by
  unfold posScores negScores
  rw [List.zip_map_left, List.filter_map, List.map_map]
  have : ((fun p : ℝ × ℝ => decide (p.1 = 0)) ∘ Prod.map otherClass id) = fun p => decide (p.1 = 1) := by
    funext p
    have e : otherClass p.1 = 0 ↔ p.1 = 1 := by
      unfold otherClass
      constructor <;> intro h <;> linarith
    exact decide_eq_decide.2 e
  rw [this]
  rfl

theorem pairSum_swap (w : ℝ → ℝ → ℝ) (neg pos : List ℝ) : (neg.map (fun n => (pos.map (fun p => w n p)).sum)).sum =
    (pos.map (fun p => (neg.map (fun n => w n p)).sum)).sum := by
  induction neg with
  | nil => induction pos with
    | nil => rfl
    | cons p ps ih => simp_all
  | cons n ns ih =>
    simp only [List.map_cons, List.sum_cons, ih]
    rw [← List.sum_map_add]

theorem pairAverage_add (w w' : ℝ → ℝ → ℝ) (neg pos : List ℝ) :
    pairAverage w neg pos + pairAverage w' neg pos = pairAverage (fun n p => w n p + w' n p) neg pos := by
  unfold pairAverage
  rw [← add_div]
  congr 1
  rw [← List.sum_map_add]
  simp only [← List.sum_map_add]

theorem pairAverage_const (c : ℝ) {neg pos : List ℝ} (hn : neg ≠ []) (hp : pos ≠ []) : pairAverage (fun _ _ => c) neg pos = c := by
  unfold pairAverage
  have h1 : (0 : ℝ) < neg.length := by exact_mod_cast List.length_pos_iff.2 hn
  have h2 : (0 : ℝ) < pos.length := by exact_mod_cast List.length_pos_iff.2 hp
  simp only [List.map_const', List.sum_replicate, nsmul_eq_mul]
  field_simp

theorem fullTies_add (n p : ℝ) : fullTies n p + fullTies p n = 1 + (if n = p then 1 else 0) := by
  unfold fullTies
  rcases lt_trichotomy n p with h | h | h
  · rw [if_pos h.le, if_neg (not_le.2 h), if_neg h.ne]
  · subst h; simp
  · rw [if_neg (not_le.2 h), if_pos h.le, if_neg h.ne']; ring

theorem pairAverage_swap (w : ℝ → ℝ → ℝ) (neg pos : List ℝ) : pairAverage w neg pos = pairAverage (fun p n => w n p) pos neg := by
  unfold pairAverage
  rw [pairSum_swap, mul_comm]

theorem pairAverage_anti {f : ℝ → ℝ} (hf : StrictAnti f) (neg pos : List ℝ) :
    pairAverage fullTies (neg.map f) (pos.map f) = pairAverage (fun n p => fullTies p n) neg pos := by
  unfold pairAverage
  simp only [List.map_map, List.length_map]
  congr 3
  funext n
  simp only [Function.comp]
  congr 2
  funext p
  simp only [Function.comp, fullTies, hf.le_iff_ge]

/-- **C162** (true part) Turning the order of the predictions around: the two areas add up to 1 plus the fraction of tied pairs. -/
theorem C162_reverse_partial {gold pred : List ℝ} (hlen : gold.length = pred.length) (h : ∀ g ∈ gold, g = 0 ∨ g = 1)
    (hp : posScores gold pred ≠ []) (hn : negScores gold pred ≠ []) {f : ℝ → ℝ} (hf : StrictAnti f) :
    ∃ a b, auc gold pred = .ok a ∧ auc gold (pred.map f) = .ok b ∧ a + b = 1 + tiedPairs gold pred := by
  refine ⟨_, _, C65_value_partial hlen h hp hn, C65_value_partial (by simpa using hlen) h (by rw [posScores_map]; simpa using hp)
    (by rw [negScores_map]; simpa using hn), ?_⟩
  rw [posScores_map, negScores_map, pairAverage_anti hf, pairAverage_add]
  simp only [fullTies_add]
  rw [← pairAverage_add, pairAverage_const _ hn hp]
  rfl

/-- **C162** (true part) Exchanging the two classes: the same. -/
theorem C162_classes_partial {gold pred : List ℝ} (hlen : gold.length = pred.length) (h : ∀ g ∈ gold, g = 0 ∨ g = 1)
    (hp : posScores gold pred ≠ []) (hn : negScores gold pred ≠ []) :
    ∃ a b, auc gold pred = .ok a ∧ auc (gold.map otherClass) pred = .ok b ∧ a + b = 1 + tiedPairs gold pred := by
  refine ⟨_, _, C65_value_partial hlen h hp hn, C65_value_partial (by simpa using hlen) ?_ (by rw [posScores_other]; exact hn)
    (by rw [negScores_other]; exact hp), ?_⟩
  · intro g hg
    obtain ⟨x, hx, rfl⟩ := List.mem_map.1 hg
    rcases h x hx with rfl | rfl
    · right; norm_num [otherClass]
    · left; norm_num [otherClass]
  · rw [posScores_other, negScores_other, pairAverage_swap fullTies (posScores gold pred), pairAverage_add]
    simp only [fullTies_add]
    rw [← pairAverage_add, pairAverage_const _ hn hp]
    rfl

/-- **C162** Doing both changes nothing. -/
theorem C162_both {gold pred : List ℝ} (hlen : gold.length = pred.length) (h : ∀ g ∈ gold, g = 0 ∨ g = 1)
    (hp : posScores gold pred ≠ []) (hn : negScores gold pred ≠ []) {f : ℝ → ℝ} (hf : StrictAnti f) :
    auc (gold.map otherClass) (pred.map f) = auc gold pred := by
  rw [C65_value_partial hlen h hp hn, C65_value_partial (by simpa using hlen) ?_
    (by rw [posScores_other, negScores_map]; simpa using hn) (by rw [negScores_other, posScores_map]; simpa using hp),
    posScores_other, negScores_other, posScores_map, negScores_map, pairAverage_anti hf, pairAverage_swap]
  intro g hg
  obtain ⟨x, hx, rfl⟩ := List.mem_map.1 hg
  rcases h x hx with rfl | rfl
  · right; norm_num [otherClass]
  · left; norm_num [otherClass]

theorem tiedPairs_zero {gold pred : List ℝ} (ht : ∀ n ∈ negScores gold pred, ∀ p ∈ posScores gold pred, n ≠ p) :
    tiedPairs gold pred = 0 := by
  unfold tiedPairs pairAverage
  have : (negScores gold pred).map (fun n => ((posScores gold pred).map (fun p => if n = p then (1 : ℝ) else 0)).sum) =
      (negScores gold pred).map (fun _ => 0) := by
    refine List.map_congr_left fun n hn => ?_
    have : (posScores gold pred).map (fun p => if n = p then (1 : ℝ) else 0) = (posScores gold pred).map (fun _ => 0) :=
      List.map_congr_left fun p hp => if_neg (ht n hn p hp)
    rw [this]
    simp
  rw [this]
  simp

/-- **C162** (true part) So without a tie between a positive and a negative item the reversed predictions get 1 minus the area. -/
theorem C162_no_ties_partial {gold pred : List ℝ} (hlen : gold.length = pred.length) (h : ∀ g ∈ gold, g = 0 ∨ g = 1)
    (hp : posScores gold pred ≠ []) (hn : negScores gold pred ≠ []) {f : ℝ → ℝ} (hf : StrictAnti f)
    (ht : ∀ n ∈ negScores gold pred, ∀ p ∈ posScores gold pred, n ≠ p) :
    ∃ a, auc gold pred = .ok a ∧ auc gold (pred.map f) = .ok (1 - a) ∧ auc (gold.map otherClass) pred = .ok (1 - a) := by
  obtain ⟨a, b, h1, h2, h3⟩ := C162_reverse_partial hlen h hp hn hf
  obtain ⟨a', c, h1', h2', h3'⟩ := C162_classes_partial hlen h hp hn
  rw [h1] at h1'
  obtain rfl := ok_inj h1'
  rw [tiedPairs_zero ht] at h3 h3'
  exact ⟨a, h1, by rw [h2]; congr 1; linarith, by rw [h2']; congr 1; linarith⟩

/-- **C162** (counterexample) In general they do not: one positive and one negative item with the same score get the area 1, and
so do the reversed predictions and the exchanged classes. -/
theorem C162_refuted : auc [0, 1] [5, 5] = .ok 1 ∧ auc [0, 1] ([5, 5].map (fun x => -x)) = .ok 1 ∧
    auc ([0, 1].map otherClass) [5, 5] = .ok 1 := by
  have hp : posScores [0, 1] [5, 5] = [5] := by simp [posScores]
  have hn : negScores [0, 1] [5, 5] = [5] := by simp [negScores]
  have ht : tiedPairs [0, 1] [5, 5] = 1 := by unfold tiedPairs; rw [hp, hn]; simp [pairAverage]
  have hg : ∀ g ∈ ([0, 1] : List ℝ), g = 0 ∨ g = 1 := by simp
  obtain ⟨a, b, h1, h2, h3⟩ := C162_reverse_partial (gold := [0, 1]) (pred := [5, 5]) rfl hg (by rw [hp]; simp) (by rw [hn]; simp)
    (f := fun x => -x) (fun x y hxy => neg_lt_neg hxy)
  obtain ⟨a', c, h1', h2', h3'⟩ := C162_classes_partial (gold := [0, 1]) (pred := [5, 5]) rfl hg (by rw [hp]; simp) (by rw [hn]; simp)
  rw [C65_refuted.1] at h1 h1'
  have e := ok_inj h1
  have e' := ok_inj h1'
  subst e e'
  rw [ht] at h3 h3'
  exact ⟨C65_refuted.1, by rw [h2]; congr 1; linarith, by rw [h2']; congr 1; linarith⟩

theorem sum_eq_length {l : List ℝ} {f : ℝ → ℝ} (h0 : ∀ x ∈ l, 0 ≤ f x) (h1 : ∀ x ∈ l, f x ≤ 1) :
    0 ≤ (l.map f).sum ∧ (l.map f).sum ≤ l.length ∧ ((l.map f).sum = l.length ↔ ∀ x ∈ l, f x = 1) ∧
      ((l.map f).sum = 0 ↔ ∀ x ∈ l, f x = 0) := by
  induction l with
  | nil => simp
  | cons x xs ih =>
    obtain ⟨i0, i1, i2, i3⟩ := ih (fun y hy => h0 y (by simp [hy])) (fun y hy => h1 y (by simp [hy]))
    have a0 := h0 x (by simp)
    have a1 := h1 x (by simp)
    simp only [List.map_cons, List.sum_cons, List.length_cons, Nat.cast_add, Nat.cast_one, List.forall_mem_cons]
    refine ⟨by linarith, by linarith, ?_, ?_⟩
    · rw [← i2]
      constructor
      · intro e; constructor <;> linarith
      · rintro ⟨e, e'⟩; linarith
    · rw [← i3]
      constructor
      · intro e; constructor <;> linarith
      · rintro ⟨e, e'⟩; linarith

/-- **C162** The area is 1 exactly when no positive item has a lower score than a negative one, and 0 exactly when every positive
item has a lower score than every negative one. -/
theorem C162_perfect {gold pred : List ℝ} (hlen : gold.length = pred.length) (h : ∀ g ∈ gold, g = 0 ∨ g = 1)
    (hp : posScores gold pred ≠ []) (hn : negScores gold pred ≠ []) :
    (auc gold pred = .ok 1 ↔ ∀ n ∈ negScores gold pred, ∀ p ∈ posScores gold pred, n ≤ p) ∧
    (auc gold pred = .ok 0 ↔ ∀ n ∈ negScores gold pred, ∀ p ∈ posScores gold pred, p < n) := by
  rw [C65_value_partial hlen h hp hn]
  have hN : (0 : ℝ) < (negScores gold pred).length := by exact_mod_cast List.length_pos_iff.2 hn
  have hP : (0 : ℝ) < (posScores gold pred).length := by exact_mod_cast List.length_pos_iff.2 hp
  generalize negScores gold pred = neg at hN hn
  generalize posScores gold pred = pos at hP hp
  have hw : ∀ n p : ℝ, 0 ≤ fullTies n p ∧ fullTies n p ≤ 1 := by
    intro n p; unfold fullTies; split <;> norm_num
  have inner := fun n => sum_eq_length (l := pos) (f := fullTies n) (fun p _ => (hw n p).1) (fun p _ => (hw n p).2)
  have outer := sum_eq_length (l := neg) (f := fun n => (pos.map (fullTies n)).sum / pos.length)
    (fun n _ => div_nonneg (inner n).1 hP.le) (fun n _ => by rw [div_le_one hP]; exact (inner n).2.1)
  have hsum : pairAverage fullTies neg pos = (neg.map (fun n => (pos.map (fullTies n)).sum / pos.length)).sum / neg.length := by
    unfold pairAverage
    have : neg.map (fun n => (pos.map (fullTies n)).sum / (pos.length : ℝ)) =
        neg.map (fun n => (pos.map (fullTies n)).sum * (pos.length : ℝ)⁻¹) := by simp only [div_eq_mul_inv]
    rw [this, List.sum_map_mul_right]
    field_simp
  have one : ∀ n p : ℝ, fullTies n p = 1 ↔ n ≤ p := by
    intro n p; unfold fullTies; split <;> simp_all
  have zero : ∀ n p : ℝ, fullTies n p = 0 ↔ p < n := by
    intro n p; unfold fullTies; split <;> simp_all
  have okk : ∀ x y : ℝ, (Except.ok x : Py ℝ) = .ok y ↔ x = y := fun x y => ⟨fun e => ok_inj e, fun e => by rw [e]⟩
  rw [okk, okk, hsum, div_eq_one_iff_eq hN.ne', div_eq_zero_iff, or_iff_left hN.ne', outer.2.2.1, outer.2.2.2]
  constructor
  · refine forall₂_congr fun n _ => ?_
    rw [div_eq_one_iff_eq hP.ne', (inner n).2.2.1]
    exact forall₂_congr fun p _ => one n p
  · refine forall₂_congr fun n _ => ?_
    rw [div_eq_zero_iff, or_iff_left hP.ne', (inner n).2.2.2]
    exact forall₂_congr fun p _ => zero n p

/-- Non-vacuity: scores 1, 3 of two negative and 2, 4 of two positive items: three of four pairs are in order; reversed, one. -/
example : auc [0, 1, 0, 1] [1, 2, 3, 4] = .ok (3 / 4) ∧ auc [0, 1, 0, 1] ([1, 2, 3, 4].map (fun x => -x)) = .ok (1 / 4) := by
  have hp : posScores [0, 1, 0, 1] [1, 2, 3, 4] = [2, 4] := by simp [posScores]
  have hn : negScores [0, 1, 0, 1] [1, 2, 3, 4] = [1, 3] := by simp [negScores]
  have hg : ∀ g ∈ ([0, 1, 0, 1] : List ℝ), g = 0 ∨ g = 1 := by simp
  have h0 : auc [0, 1, 0, 1] [1, 2, 3, 4] = .ok (3 / 4) := by
    rw [C65_value_partial (gold := [0, 1, 0, 1]) (pred := [1, 2, 3, 4]) rfl hg (by rw [hp]; simp) (by rw [hn]; simp), hp, hn]
    norm_num [pairAverage, fullTies]
  obtain ⟨a, h1, h2, _⟩ := C162_no_ties_partial (gold := [0, 1, 0, 1]) (pred := [1, 2, 3, 4]) rfl hg (by rw [hp]; simp)
    (by rw [hn]; simp) (f := fun x => -x) (fun x y hxy => neg_lt_neg hxy) (by rw [hp, hn]; norm_num)
  rw [h0] at h1
  have e := ok_inj h1
  subst e
  exact ⟨h0, by rw [h2]; norm_num⟩

/-- … and exchanging both gives 3/4 again; the area is neither 0 nor 1, since 3 is between 2 and 4. -/
example : auc ([0, 1, 0, 1].map otherClass) ([1, 2, 3, 4].map (fun x => -x)) = auc [0, 1, 0, 1] [1, 2, 3, 4] ∧
    auc [0, 1, 0, 1] [1, 2, 3, 4] ≠ .ok 1 ∧ auc [0, 1, 0, 1] [1, 2, 3, 4] ≠ .ok 0 := by
  have hp : posScores [0, 1, 0, 1] [1, 2, 3, 4] = [2, 4] := by simp [posScores]
  have hn : negScores [0, 1, 0, 1] [1, 2, 3, 4] = [1, 3] := by simp [negScores]
  have hg : ∀ g ∈ ([0, 1, 0, 1] : List ℝ), g = 0 ∨ g = 1 := by simp
  have hpf := C162_perfect (gold := [0, 1, 0, 1]) (pred := [1, 2, 3, 4]) rfl hg (by rw [hp]; simp) (by rw [hn]; simp)
  refine ⟨C162_both (gold := [0, 1, 0, 1]) (pred := [1, 2, 3, 4]) rfl hg (by rw [hp]; simp) (by rw [hn]; simp) (fun x y hxy => neg_lt_neg hxy), ?_, ?_⟩
  · rw [ne_eq, hpf.1, hp, hn]; norm_num
  · rw [ne_eq, hpf.2, hp, hn]; norm_num

end
end Dissect
