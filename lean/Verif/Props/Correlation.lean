import Verif.Lemmas.Correlation
import Verif.Props.Scoring
import Verif.Props.Neighbours

/-! # C140: the correlation scores -/

namespace Dissect
noncomputable section

/-- The two correlation measures. -/
def correlationNames : List Str := [cs!"pearson", cs!"spearman"]

theorem score_pearson {lib : StatsLib} (hl : lib.Correct) {x y : List ℝ} (h : x.length = y.length) (hx : Varies x) (hy : Varies y) :
    score lib x y cs!"pearson" = .ok (pearsonR x y) := by
  exact (C66_dispatch lib h).1.trans (hl.pearson x y h hx hy)

theorem score_spearman {lib : StatsLib} (hl : lib.Correct) {x y : List ℝ} (h : x.length = y.length) (hx : Varies x) (hy : Varies y) :
    score lib x y cs!"spearman" = .ok (pearsonR (ranks x) (ranks y)) := by
  exact (C66_dispatch lib h).2.1.trans (hl.spearman x y h hx hy)

theorem ranks_len {x y : List ℝ} (h : x.length = y.length) : (ranks x).length = (ranks y).length := by
  rw [ranks_length, ranks_length, h]

/-- **C140** Both scores are between -1 and 1, whenever neither list of numbers is constant. -/
theorem C140_range {lib : StatsLib} (hl : lib.Correct) {x y : List ℝ} (h : x.length = y.length) (hx : Varies x) (hy : Varies y)
    (m : Str) (hm : m ∈ correlationNames) : ∃ r, score lib x y m = .ok r ∧ -1 ≤ r ∧ r ≤ 1 := by
  simp only [correlationNames, List.mem_cons, List.not_mem_nil, or_false] at hm
  rcases hm with rfl | rfl
  · exact ⟨_, score_pearson hl h hx hy, pearsonR_range h⟩
  · exact ⟨_, score_spearman hl h hx hy, pearsonR_range (ranks_len h)⟩

/-- **C140** Gold scores and predictions may be exchanged. -/
theorem C140_symmetric {lib : StatsLib} (hl : lib.Correct) {x y : List ℝ} (h : x.length = y.length) (hx : Varies x) (hy : Varies y)
    (m : Str) (hm : m ∈ correlationNames) : score lib x y m = score lib y x m := by
  simp only [correlationNames, List.mem_cons, List.not_mem_nil, or_false] at hm
  rcases hm with rfl | rfl
  · rw [score_pearson hl h hx hy, score_pearson hl h.symm hy hx, pearsonR_comm]
  · rw [score_spearman hl h hx hy, score_spearman hl h.symm hy hx, pearsonR_comm]

theorem Varies.perm {x x' : List ℝ} (h : Varies x) (hp : x.Perm x') : Varies x' := by
  obtain ⟨a, ha, b, hb, hab⟩ := h
  exact ⟨a, hp.mem_iff.1 ha, b, hp.mem_iff.1 hb, hab⟩

/-- **C140** The order of the pairs does not matter, for all three measures. -/
theorem C140_order {lib : StatsLib} (hl : lib.Correct) {x y x' y' : List ℝ} (h : x.length = y.length) (h' : x'.length = y'.length)
    (hp : (x.zip y).Perm (x'.zip y')) (hx : Varies x) (hy : Varies y) (m : Str) : score lib x y m = score lib x' y' m := by
  have px : x.Perm x' := by have := hp.map Prod.fst; rwa [zip_fst h, zip_fst h'] at this
  have py : y.Perm y' := by have := hp.map Prod.snd; rwa [zip_snd h, zip_snd h'] at this
  by_cases h1 : m = cs!"pearson"
  · subst h1
    rw [score_pearson hl h hx hy, score_pearson hl h' (hx.perm px) (hy.perm py), pearsonR_perm h h' hp]
  by_cases h2 : m = cs!"spearman"
  · subst h2
    rw [score_spearman hl h hx hy, score_spearman hl h' (hx.perm px) (hy.perm py),
      pearsonR_perm (ranks_len h) (ranks_len h') (zip_ranks_perm h h' hp)]
  by_cases h3 : m = cs!"auc"
  · subst h3
    exact (C66_dispatch lib h).2.2.1.trans ((C65_order_invariant h h' hp).trans (C66_dispatch lib h').2.2.1.symm)
  · have hm : m ∉ ["pearson".toList, "spearman".toList, "auc".toList] := by
      intro hm
      have : m = "pearson".toList ∨ m = "spearman".toList ∨ m = "auc".toList := by simpa only [List.mem_cons, List.not_mem_nil, or_false] using hm
      rcases this with e | e | e
      · exact h1 e
      · exact h2 e
      · exact h3 e
    rw [(C66_dispatch lib h).2.2.2 m hm, (C66_dispatch lib h').2.2.2 m hm]

theorem varies_map {x : List ℝ} (h : Varies x) {f : ℝ → ℝ} (hf : Function.Injective f) : Varies (x.map f) := by
  obtain ⟨a, ha, b, hb, hab⟩ := h
  exact ⟨f a, List.mem_map.2 ⟨a, ha, rfl⟩, f b, List.mem_map.2 ⟨b, hb, rfl⟩, fun e => hab (hf e)⟩

/-- **C140** Pearson's score does not depend on the scale and the zero point of the predictions, and reversing the scale changes
its sign. -/
theorem C140_pearson_scale {lib : StatsLib} (hl : lib.Correct) {x y : List ℝ} (h : x.length = y.length) (hx : Varies x)
    (hy : Varies y) (a b : ℝ) :
    (0 < a → score lib x (y.map (fun t => a * t + b)) cs!"pearson" = score lib x y cs!"pearson") ∧
    (a < 0 → ∃ r, score lib x y cs!"pearson" = .ok r ∧ score lib x (y.map (fun t => a * t + b)) cs!"pearson" = .ok (-r)) := by
  have key : a ≠ 0 → score lib x (y.map (fun t => a * t + b)) cs!"pearson" = .ok (a / |a| * pearsonR x y) := by
    intro ha
    have hi : Function.Injective (fun t : ℝ => a * t + b) := by
      intro s t e
      have : a * s = a * t := by simpa using e
      exact mul_left_cancel₀ ha this
    rw [score_pearson hl (by simpa using h) hx (varies_map hy hi), pearsonR_affine hy.ne_nil ha]
  refine ⟨fun ha => ?_, fun ha => ⟨_, score_pearson hl h hx hy, ?_⟩⟩
  · rw [key ha.ne', score_pearson hl h hx hy, abs_of_pos ha, div_self ha.ne', one_mul]
  · rw [key ha.ne, abs_of_neg ha, div_neg, div_self ha.ne, neg_mul, one_mul]

/-- **C140** Spearman's score depends only on the order of the predictions, and reversing the order changes its sign. -/
theorem C140_spearman_scale {lib : StatsLib} (hl : lib.Correct) {x y : List ℝ} (h : x.length = y.length) (hx : Varies x)
    (hy : Varies y) (f : ℝ → ℝ) :
    (StrictMono f → score lib x (y.map f) cs!"spearman" = score lib x y cs!"spearman") ∧
    (StrictAnti f → ∃ r, score lib x y cs!"spearman" = .ok r ∧ score lib x (y.map f) cs!"spearman" = .ok (-r)) := by
  refine ⟨fun hf => ?_, fun hf => ⟨_, score_spearman hl h hx hy, ?_⟩⟩
  · rw [score_spearman hl (by simpa using h) hx (varies_map hy hf.injective), ranks_mono hf, score_spearman hl h hx hy]
  · rw [score_spearman hl (by simpa using h) hx (varies_map hy hf.injective), ranks_anti hf,
      pearsonR_affine (ranks_varies hy).ne_nil (by norm_num)]
    norm_num

/-- **C140** Pearson's score is 1 exactly when the predictions are the gold scores on another scale. -/
theorem C140_pearson_perfect {lib : StatsLib} (hl : lib.Correct) {x y : List ℝ} (h : x.length = y.length) (hx : Varies x)
    (hy : Varies y) : score lib x y cs!"pearson" = .ok 1 ↔ ∃ a b : ℝ, 0 < a ∧ y = x.map (fun t => a * t + b) := by
  rw [score_pearson hl h hx hy, ← pearsonR_eq_one h hx hy]
  exact ⟨fun e => by injection e, fun e => by rw [e]⟩

theorem ranks_eq_of_order {x y : List ℝ} (h : x.length = y.length) (ho : ∀ p ∈ x.zip y, ∀ q ∈ x.zip y, p.1 < q.1 ↔ p.2 < q.2) :
    ranks x = ranks y := by
  have key : ∀ p ∈ x.zip y, rankIn x p.1 = rankIn y p.2 := by
    intro p hp
    have e1 : (x.filter (fun t => decide (t < p.1))).length = (y.filter (fun t => decide (t < p.2))).length := by
      conv_lhs => rw [← zip_fst h]
      conv_rhs => rw [← zip_snd h]
      rw [List.filter_map, List.filter_map, List.length_map, List.length_map]
      congr 1
      refine List.filter_congr fun q hq => ?_
      simp only [Function.comp, decide_eq_decide]
      exact ho q hq p hp
    have e2 : (x.filter (fun t => decide (t = p.1))).length = (y.filter (fun t => decide (t = p.2))).length := by
      conv_lhs => rw [← zip_fst h]
      conv_rhs => rw [← zip_snd h]
      rw [List.filter_map, List.filter_map, List.length_map, List.length_map]
      congr 1
      refine List.filter_congr fun q hq => ?_
      simp only [Function.comp, decide_eq_decide]
      have a := ho q hq p hp
      have b := ho p hp q hq
      constructor
      · intro e
        rw [e] at a b
        exact le_antisymm (not_lt.1 (fun h => lt_irrefl _ (b.2 h))) (not_lt.1 (fun h => lt_irrefl _ (a.2 h)))
      · intro e
        rw [e] at a b
        exact le_antisymm (not_lt.1 (fun h => lt_irrefl _ (b.1 h))) (not_lt.1 (fun h => lt_irrefl _ (a.1 h)))
    unfold rankIn
    rw [e1, e2]
  have e : (x.zip y).map (fun p => rankIn x p.1) = (x.zip y).map (fun p => rankIn y p.2) := List.map_congr_left key
  have e1 : (x.zip y).map (fun p => rankIn x p.1) = ranks x := by
    unfold ranks
    rw [show (fun p : ℝ × ℝ => rankIn x p.1) = rankIn x ∘ Prod.fst from rfl, ← List.map_map, zip_fst h]
  have e2 : (x.zip y).map (fun p => rankIn y p.2) = ranks y := by
    unfold ranks
    rw [show (fun p : ℝ × ℝ => rankIn y p.2) = rankIn y ∘ Prod.snd from rfl, ← List.map_map, zip_snd h]
  rw [← e1, ← e2, e]

/-- **C140** Spearman's score is 1 exactly when the predictions order the items as the gold scores do. -/
theorem C140_spearman_perfect {lib : StatsLib} (hl : lib.Correct) {x y : List ℝ} (h : x.length = y.length) (hx : Varies x)
    (hy : Varies y) : score lib x y cs!"spearman" = .ok 1 ↔ ∀ p ∈ x.zip y, ∀ q ∈ x.zip y, p.1 < q.1 ↔ p.2 < q.2 := by
  rw [score_spearman hl h hx hy]
  constructor
  · intro e
    injection e with e
    obtain ⟨a, b, ha, hr⟩ := (pearsonR_eq_one (ranks_len h) (ranks_varies hx) (ranks_varies hy)).1 e
    have key : ∀ p ∈ x.zip y, rankIn y p.2 = a * rankIn x p.1 + b := by
      have e1 : (x.zip y).map (fun p => rankIn y p.2) = (x.zip y).map (fun p => a * rankIn x p.1 + b) := by
        have e2 : (x.zip y).map (fun p => rankIn y p.2) = ranks y := by
          unfold ranks
          rw [show (fun p : ℝ × ℝ => rankIn y p.2) = rankIn y ∘ Prod.snd from rfl, ← List.map_map, zip_snd h]
        have e3 : (x.zip y).map (fun p => a * rankIn x p.1 + b) = (ranks x).map (fun t => a * t + b) := by
          unfold ranks
          rw [List.map_map, show (fun p : ℝ × ℝ => a * rankIn x p.1 + b) = ((fun t => a * t + b) ∘ rankIn x) ∘ Prod.fst from rfl,
            ← List.map_map, zip_fst h]
        rw [e2, e3, hr]
      exact List.map_inj_left.1 e1
    intro p hp q hq
    have m1 : ∀ p ∈ x.zip y, p.1 ∈ x := fun p hp => by rw [← zip_fst h]; exact List.mem_map.2 ⟨p, hp, rfl⟩
    have m2 : ∀ p ∈ x.zip y, p.2 ∈ y := fun p hp => by rw [← zip_snd h]; exact List.mem_map.2 ⟨p, hp, rfl⟩
    rw [← rankIn_lt_iff (m1 p hp) (m1 q hq), ← rankIn_lt_iff (m2 p hp) (m2 q hq), key p hp, key q hq]
    constructor
    · intro hlt; nlinarith
    · intro hlt
      by_contra hn
      have := mul_le_mul_of_nonneg_left (not_lt.1 hn) ha.le
      linarith
  · intro ho
    rw [← ranks_eq_of_order h ho, pearsonR_self (ranks_varies hx)]

/-! ### The script -/

theorem forall₂_zip {α β γ : Type} {R : α → β → Prop} {S : α → γ → Prop} {l : List α} {x : List β} {y : List γ}
    (h1 : List.Forall₂ R l x) (h2 : List.Forall₂ S l y) : List.Forall₂ (fun a p => R a p.1 ∧ S a p.2) l (x.zip y) := by
  induction h1 generalizing y with
  | nil => cases h2; exact .nil
  | cons h _ ih => cases h2 with | cons h' t => exact .cons ⟨h, h'⟩ (ih t)

/-- **C140** `evaluate_similarities.py`: the order of the lines of the file (and the blank lines in it) do not matter. -/
theorem C140_line_order {L : Lib} (hl : L.stats.Correct) {fs : Fs} {f f' a b content content' : Str} {i j : ℕ} {ms : List Str}
    {r : List (Str × ℝ)} (ha : pyInt a = .ok ((i + 1 : ℕ) : ℤ)) (hb : pyInt b = .ok ((j + 1 : ℕ) : ℤ))
    (hf : fs.read f = .ok content) (hf' : fs.read f' = .ok content') (hp : (records content).Perm (records content'))
    (hi : ∀ xs, List.Forall₂ (NumberIn L.io i) (records content) xs → Varies xs)
    (hj : ∀ xs, List.Forall₂ (NumberIn L.io j) (records content) xs → Varies xs)
    (h : evaluateSim L fs f [a, b] ms = .ok r) : evaluateSim L fs f' [a, b] ms = .ok r := by
  obtain ⟨c0, gold, pred, h0, h1, h2, h3⟩ := (C83_scores ha hb).1 h
  rw [hf] at h0
  injection h0 with h0
  subst h0
  have hlen : gold.length = pred.length := h1.length_eq.symm.trans h2.length_eq
  obtain ⟨zs, hz1, hz2⟩ := List.perm_comp_forall₂ hp.symm (forall₂_zip h1 h2)
  have e1 : (zs.map Prod.fst).zip (zs.map Prod.snd) = zs := by rw [List.zip_map']; simp
  refine (C83_scores ha hb).2 ⟨content', zs.map Prod.fst, zs.map Prod.snd, hf', ?_, ?_, ?_⟩
  · rw [List.forall₂_map_right_iff]; exact hz1.imp fun _ _ h => h.1
  · rw [List.forall₂_map_right_iff]; exact hz1.imp fun _ _ h => h.2
  · refine h3.imp fun m x hx => ⟨hx.1, ?_⟩
    rw [← hx.2]
    exact (C140_order hl hlen (by simp) (by rw [e1]; exact hz2.symm) (hi _ h1) (hj _ h2) m).symm

end
end Dissect
