import Verif.Examples.Objects
import Verif.Props.SpaceApply
import Verif.Props.SimMore
import Verif.Props.Twice

/-! # Concrete instances of the theorems about spaces, scalings and similarities -/

namespace Dissect
noncomputable section
open Finset
namespace Examples

/-! ## C01, C03, C04 -/

/-- C01: too few row labels. -/
example : ∃ e, Space.new (exMat .dense) ["dog"] ["a", "b", "c"] none none [] none = .error e ∧ e = .valueError := by
  have h : Space.new (exMat .dense) ["dog"] ["a", "b", "c"] none none [] none = .error .valueError := rfl
  refine ⟨_, h, ?_⟩
  rcases C01_rejects _ _ _ _ _ _ _ _ h with h | ⟨h, _⟩
  · exact h
  · cases h

/-- C01: a dictionary whose entry is out of range. -/
example : ∃ d, Space.new (exMat .dense) ["dog", "cat"] ["a", "b", "c"] (some d) none [] none = .error .indexError ∧
    OutOfRange ["dog", "cat"] (some d) := by
  have h : Space.new (exMat .dense) ["dog", "cat"] ["a", "b", "c"] (some ⟨[("dog", 0), ("cat", 2)], by simp⟩) none [] none =
      .error .indexError := rfl
  refine ⟨_, h, ?_⟩
  rcases C01_rejects _ _ _ _ _ _ _ _ h with h | ⟨_, h | ⟨d', _, _, h, _⟩⟩
  · cases h
  · exact h
  · cases h

/-- C01 -/
example : ∃ v, (animals .sparse).row2id.get? "cat" = some v ∧ pyIdx 2 v = some 1 :=
  (C01_maps_inverse (animals .sparse) (animals_wf _)).2.1 "cat" 1 rfl

/-- C03 -/
example : ∃ r, (animals .sparse).getRow "cat" = .ok r ∧ r.ty = .sparse ∧ r.val.get 0 2 = 5 := by
  obtain ⟨r, h1, h2, _, _, h5⟩ := C03_get_row (animals .sparse) (animals_wf _) (by decide) 1 "cat" rfl
  refine ⟨r, h1, h2, (h5 2).trans ?_⟩
  show (exMat .sparse).val.get 1 2 = 5
  simp [exMat, Mat.of_get]
  norm_num

/-- C03 -/
example : (animals .dense).getRow "cow" = .error .keyError ∧
    (animals .dense).getRows ["dog", "cow"] = .error .keyError :=
  ⟨(C03_get_row_missing _ (animals_wf _) "cow").2 (by simp [animals]),
    (C03_get_rows_missing _ (animals_wf _) _).2 ⟨"cow", by simp, by simp [animals]⟩⟩

/-- C03: rows in the requested order, with repetitions. -/
example : ∃ r, (animals .dense).getRows ["cat", "dog", "cat"] = .ok r ∧ r.nr = 3 ∧
    (∀ j, r.val.get 1 j = (animals .dense).mat.val.get 0 j) ∧
    ∃ v, (animals .dense).getRow "cat" = .ok v ∧ ∀ j, v.val.get 0 j = r.val.get 2 j := by
  obtain ⟨r, h1, _, h3, _, h5⟩ := C03_get_rows (animals .dense) (animals_wf _) (by decide) ["cat", "dog", "cat"] (by simp)
    (by simp [animals])
  obtain ⟨v, g1, _, g3⟩ := C03_get_rows_eq_get_row (animals .dense) (animals_wf _) (by decide) _ r h1 (by simp) 2 "cat" rfl
  exact ⟨r, h1, h3, h5 1 "dog" 0 rfl rfl, v, g1, g3⟩

theorem stack_ok : ∃ s, Space.vstack (animals .dense) (adjectives .sparse) = .ok s :=
  (C04_accepts_iff _ _ (animals_wf _) (adjectives_wf _) (animals_plain _) (by decide) (by decide)).2
    ⟨rfl, rfl, by simp [animals, adjectives]⟩

/-- C04: stacking a dense and a sparse space. -/
example : ∃ s, Space.vstack (animals .dense) (adjectives .sparse) = .ok s ∧ s.id2row = ["dog", "cat", "red", "big"] ∧
    ∃ v v', s.getRow "big" = .ok v ∧ (adjectives .sparse).getRow "big" = .ok v' ∧ ∀ j, v.val.get 0 j = v'.val.get 0 j := by
  obtain ⟨s, hs⟩ := stack_ok
  obtain ⟨_, h2, _⟩ := C04_words_keep_vectors _ _ _ (animals_wf _) (adjectives_wf _) hs
  obtain ⟨v, v', g1, g2, _, g4⟩ := C04_lookup _ _ _ (animals_wf _) (adjectives_wf _) hs (by decide) "big" _ (.inr rfl)
    (by simp [adjectives])
  exact ⟨s, hs, h2, v, v', g1, g2, g4⟩

/-- C04 -/
example : Space.vstack (animals .dense) (animals .dense) = .error .valueError :=
  C04_rejects _ _ (animals_wf _) (.inr (.inr ⟨"dog", by simp [animals], by simp [animals]⟩))

/-- C117 -/
example : ∃ s, Space.vstack (animals .dense) (adjectives .sparse) = .ok s ∧
    s.getSim "dog" "big" .cos none = (animals .dense).getSim "dog" "big" .cos (some (adjectives .sparse)) ∧
    s.getSim "dog" "cat" .lin none = (animals .dense).getSim "dog" "cat" .lin none := by
  obtain ⟨s, hs⟩ := stack_ok
  exact ⟨s, hs, C117_stacked_sim _ _ _ (animals_wf _) (adjectives_wf _) hs (by decide) _ _ (.inl rfl) (.inr rfl) _ _
    (by simp [animals]) (by simp [adjectives]) _, C117_same_part _ _ _ (animals_wf _) (adjectives_wf _) hs (by decide) _
    (.inl rfl) _ _ (by simp [animals]) (by simp [animals]) _⟩

/-! ## C05, C07, C72 -/

/-- C05 -/
example (env : Env) : ∃ s', (animals .sparse).apply env (.scaling .plmi) = .ok s' ∧ s'.id2col = ["a", "b", "c"] ∧
    s'.mat.nr = 2 ∧ s'.id2row = ["dog", "cat"] := by
  obtain ⟨s', h⟩ := (C05_apply_total env (animals .sparse) (animals_wf _) (by decide) (by decide)).1 .plmi (animals_nonneg _)
  obtain ⟨a, _, b, _⟩ := C05_scaling_keeps_columns env _ _ _ (by decide) h
  exact ⟨s', h, a, b, (C05_apply env _ _ _ h).2.1⟩

/-- C05 -/
example (env : Env) : ∃ s', (animals .sparse).apply env (.featsel 2 .sum) = .ok s' ∧ s'.mat.nc = 2 ∧ s'.id2col.length = 2 := by
  obtain ⟨s', h⟩ := (C05_apply_total env (animals .sparse) (animals_wf _) (by decide) (by decide)).2 2 .sum (by decide) (by decide)
  obtain ⟨_, a, _, b, _⟩ := C05_featsel_keeps_labels env _ _ _ _ (animals_wf _) h
  have a : s'.mat.nc = 2 := a
  exact ⟨s', h, a, (b (by simp [animals])).trans a⟩

/-- C122 -/
example (env : Env) : ∃ s1 s2 s3, (animals .dense).apply env (.featsel 2 .length) = .ok s1 ∧
    s1.apply env (.featsel 1 .length) = .ok s2 ∧ (animals .dense).apply env (.featsel (min 1 2) .length) = .ok s3 ∧
    s2.mat = s3.mat ∧ s2.id2col = s3.id2col := by
  obtain ⟨s1, h1⟩ := (C05_apply_total env (animals .dense) (animals_wf _) (by decide) (by decide)).2 2 .length (by decide) (by decide)
  obtain ⟨wf, _, _, hsh, _⟩ := C05_apply env _ _ _ h1
  obtain ⟨hnr, hnc, _⟩ := C05_featsel_keeps_labels env _ _ _ _ (animals_wf _) h1
  obtain ⟨s2, h2⟩ := (C05_apply_total env s1 wf (by rw [hnr]; decide) (by rw [hnc]; decide)).2 1 .length (by decide)
    (by rw [hsh]; simp)
  obtain ⟨s3, h3⟩ := (C05_apply_total env (animals .dense) (animals_wf _) (by decide) (by decide)).2 1 .length (by decide) (by decide)
  obtain ⟨a, _, b⟩ := C122_select_in_steps env _ _ _ _ 2 1 _ h1 h2 h3
  exact ⟨s1, s2, s3, h1, h2, h3, a, b⟩

/-- C07: a square space, whose matrix can be replaced. -/
def square : Space String where
  mat := ⟨.dense, Mat.of 2 2 (fun i j => (i + j : ℕ))⟩
  id2row := ["dog", "cat"]
  id2col := ["a", "b"]
  row2id := ⟨[("dog", 0), ("cat", 1)], by simp⟩
  col2id := ⟨[("a", 0), ("b", 1)], by simp⟩
  ops := []
  elemShape := [2]

theorem square_wf : square.WF :=
  (C01_result square.mat ["dog", "cat"] ["a", "b"] none none [] none square rfl).1

/-- C07 -/
example : ∃ s', square.setMatrix ⟨.sparse, Mat.of 2 2 (fun _ _ => 7)⟩ = .ok s' ∧
    s' = { square with mat := ⟨.sparse, Mat.of 2 2 (fun _ _ => 7)⟩ } := by
  obtain ⟨s', h⟩ := (C07_accepts_iff_partial square square_wf (by simp [square]) ⟨.sparse, Mat.of 2 2 (fun _ _ => 7)⟩).2
    (by decide)
  exact ⟨s', h, C07_uses_new_matrix_partial _ _ _ h⟩

/-- C07 -/
example : square.setMatrix (adjectives .dense).mat = .error .valueError ∨
    square.setMatrix ⟨.dense, Mat.of 3 2 (fun _ _ => 1)⟩ = .error .valueError :=
  .inr (C07_wrong_rows_partial square square_wf _ (by decide))

/-- C72: a space whose elements are `3 × 1` matrices. -/
example (env : Env) : ∃ s : Space String, s.WF ∧ ∀ d s', s.apply env (.dimred d) ≠ .ok s' := by
  obtain ⟨s, wf, _, _, _, _, hsh⟩ := ex_space .dense
  exact ⟨s, wf, fun d => C72_matrix_elements_partial env s (by rw [hsh]; decide) _ (by simp)⟩

/-! ## C16–C20 -/

/-- C16: in `[[0, 2, 4], [1, 3, 5]]` the entry (1, 0) gives the exponential pmi `1 · 15 / (9 · 1)`. -/
example : epmiSpec (animals .dense).mat.val 1 0 = 15 / 9 := by
  simp [epmiSpec, Mat.rowSum, Mat.colSum, Mat.total, animals, exMat, Mat.of_get, Finset.sum_range_succ]
  norm_num

/-- C16 -/
example (ty : MTy) : ∃ r, epmi (animals ty).mat none = .ok r ∧ r.ty = ty ∧
    Yields (ppmi (animals ty).mat none) ty 2 3 (ppmiSpec (animals ty).mat.val) ∧
    Yields (plmi (animals ty).mat none) ty 2 3 (fun i j => (animals ty).mat.val.get i j * ppmiSpec (animals ty).mat.val i j) := by
  obtain ⟨r, h1, h2, _⟩ := C16_epmi (animals ty).mat (by simp [animals, exMat, TMat.nr]) (by simp [animals, exMat, TMat.nc]) (animals_nonneg _)
  exact ⟨r, h1, h2, C16_ppmi (animals ty).mat (by simp [animals, exMat, TMat.nr]) (by simp [animals, exMat, TMat.nc]) (animals_nonneg _),
    C16_plmi (animals ty).mat (by simp [animals, exMat, TMat.nr]) (by simp [animals, exMat, TMat.nc]) (animals_nonneg _)⟩

/-- C16 -/
example : 0 < (animals .dense).mat.val.rowSum 1 ∧ 0 ≤ epmiSpec (animals .dense).mat.val 1 0 :=
  ⟨(C16_no_division_by_zero (animals .dense).mat.val (animals_nonneg _) 1 0 (by decide) (by decide)
    (by simp [animals, exMat, Mat.of_get])).1,
   (C16_nonnegative (animals .dense).mat.val (animals_nonneg _) 1 0 (by decide) (by decide)).1⟩

/-- C16 -/
example : ppmi ⟨.sparse, Mat.of 1 2 (fun _ j => (j : ℝ) - 1)⟩ none = .error .valueError :=
  (C16_negative_rejected ⟨.sparse, Mat.of 1 2 (fun _ j => (j : ℝ) - 1)⟩ none (by
    intro h
    have := h 0 0 (by decide) (by decide)
    simp [Mat.of_get] at this
    norm_num at this)).2.1

/-- C17 -/
example : ∃ r, plogWeighting (animals .sparse).mat = .ok r ∧ r.val.get 0 0 = 0 ∧ r.val.get 1 2 = Real.log 5 := by
  obtain ⟨r, h1, _, _, _, h5⟩ := C17_plog (animals .sparse).mat (by decide) (by decide)
  refine ⟨r, h1, ?_, ?_⟩
  · rw [h5 0 0 (by decide) (by decide)]
    simp [animals, exMat, Mat.of_get]
  · rw [h5 1 2 (by decide) (by decide)]
    simp [animals, exMat, Mat.of_get]
    norm_num

/-- C17 -/
example : (animals .sparse).mat.plog.val.get 1 1 = max 0 (Real.log ((animals .sparse).mat.val.get 1 1)) :=
  (C17_plog_in_place (animals .sparse).mat 1 1 (by decide) (by decide)).2.2 (by
    simp [animals, exMat, Mat.of_get]
    norm_num)

/-- C18 -/
example : ∃ r, rowNormalization .sum (animals .dense).mat = .ok r ∧ r.val.get 1 2 = 5 / 9 ∧
    rowNormalization .sum r = .ok r := by
  obtain ⟨r, h1, h2, h3, h4, h5, _⟩ := C18_row_normalization .sum (animals .dense).mat (by decide) (by decide)
  have q : rowQuantity .sum (animals .dense).mat.val 1 = 9 := by
    simp [rowQuantity, Mat.rowSum, animals, exMat, Mat.of_get, Finset.sum_range_succ]
    norm_num
  refine ⟨r, h1, ?_, ?_⟩
  · rw [(h5 1 (by decide) (by rw [q]; norm_num)).2 2, q]
    simp [animals, exMat, Mat.of_get]
    norm_num
  · obtain ⟨r', g1, _⟩ := C18_row_normalization .sum r (by rw [h3]; decide) (by rw [h4]; decide)
    rw [g1, C18_idempotent .sum _ r r' (by decide) (by decide) h1 g1]

/-- C19, C122 -/
example : ∃ r, normalization .sum (animals .dense).mat none = .ok r ∧ matQuantity .sum r.val = 1 ∧
    normalization .sum r none = .ok r := by
  obtain ⟨r, h1, _, h3, h4, h5, _⟩ := C19_normalization .sum (animals .dense).mat (by decide) (by decide)
  have q : matQuantity .sum (animals .dense).mat.val = 15 := by
    simp [matQuantity, Mat.total, animals, exMat, Mat.of_get, Finset.sum_range_succ]
    norm_num
  refine ⟨r, h1, (h5 (by rw [q]; norm_num)).1, ?_⟩
  obtain ⟨r', g1, _⟩ := C19_normalization .sum r (by rw [h3]; decide) (by rw [h4]; decide)
  rw [g1, C122_normalization_twice .sum _ r r' (by decide) (by decide) h1 g1]

/-- C20: the two columns of largest sum of `[[0, 2, 4], [1, 3, 5]]` are `c` and `b`. -/
example : ∃ r, topFeatureSelection 2 .sum (animals .dense).mat = .ok (r, [2, 1]) ∧ r.val.get 1 0 = 5 := by
  obtain ⟨r, sel, h1, h2, _, _, _, h6⟩ := C20_top_feature_selection 2 .sum (animals .dense).mat (by decide) (by decide) (by decide)
  have q : ∀ j, j < 3 → colQuantity .sum (animals .dense).mat.val j = 4 * j + 1 := by
    intro j hj
    simp [colQuantity, Mat.colSum, animals, exMat, Mat.of_get, Finset.sum_range_succ, hj]
    ring
  obtain ⟨a, b, rfl⟩ := List.length_eq_two.1 (h2.count.trans (by decide))
  have ha : a < 3 := h2.inRange a (by simp)
  have hb : b < 3 := h2.inRange b (by simp)
  have hab := List.rel_of_pairwise_cons h2.sorted (List.mem_singleton.2 rfl)
  rw [q a ha, q b hb] at hab
  have hlt : b < a := by
    rcases hab with h | ⟨h, h'⟩
    · have : (b : ℝ) < a := by linarith
      exact_mod_cast this
    · have : (b : ℝ) = a := by linarith
      have : b = a := by exact_mod_cast this
      omega
  have h20 : a = 2 ∧ b = 1 := by
    by_cases h : a = 2 ∧ b = 1
    · exact h
    · exfalso
      obtain ⟨rfl, rfl⟩ | ⟨rfl, rfl⟩ : a = 1 ∧ b = 0 ∨ a = 2 ∧ b = 0 := by omega
      · have := h2.best 1 (by simp) 2 (by decide) (by simp)
        rw [q 1 (by decide), q 2 (by decide)] at this
        norm_num at this
      · have := h2.best 0 (by simp) 1 (by decide) (by simp)
        rw [q 0 (by decide), q 1 (by decide)] at this
        norm_num at this
  obtain ⟨rfl, rfl⟩ := h20
  refine ⟨r, h1, ?_⟩
  rw [h6 0 2 rfl 1]
  simp [animals, exMat, Mat.of_get]
  norm_num

/-! ## C08–C15 -/

/-- C08 -/
example (sim : Sim) : (animals .dense).getSim "dog" "cow" sim none = .ok 0 ∧
    (animals .dense).getSim "dog" "cat" sim (some (adjectives .sparse)) = .ok 0 :=
  ⟨C08_missing _ (animals .dense) none sim _ _ rfl (animals_wf _) (animals_wf _) (by decide) (.inr (by simp [animals])),
    C08_missing _ (adjectives .sparse) (some _) sim _ _ rfl (animals_wf _) (adjectives_wf _) (by decide)
      (.inr (by simp [adjectives]))⟩

/-- C08 -/
example (sim : Sim) : ∃ r1 r2 x, (animals .dense).getRow "dog" = .ok r1 ∧ (adjectives .sparse).getRow "red" = .ok r2 ∧
    (animals .dense).getSim "dog" "red" sim (some (adjectives .sparse)) = .ok x ∧
    ∀ ty1 ty2, sim.getSim ⟨ty1, r1.val⟩ ⟨ty2, r2.val⟩ = .ok x :=
  C08_measure_of_rows _ (adjectives .sparse) (some _) sim _ _ rfl (animals_wf _) (adjectives_wf _) (by decide) rfl
    (by simp [animals]) (by simp [adjectives])

/-- C08 -/
example (sim : Sim) : (animals .dense).getSim "dog" "cat" sim (some square) = .error .valueError :=
  C08_width_mismatch _ square (some square) sim _ _ rfl (animals_wf _) square_wf (by decide) (by decide) (by decide)
    (by simp [animals]) (by simp [square])

/-- C08 -/
example (sim : Sim) : ∃ xs, (animals .dense).getSims sim none [("dog", "cat"), ("cow", "dog")] = .ok xs ∧ xs[1]? = some 0 := by
  obtain ⟨xs, h⟩ := C08_get_sims_total (animals .dense) (animals .dense) none sim rfl (animals_wf _) (animals_wf _)
    (by decide) rfl [("dog", "cat"), ("cow", "dog")]
  obtain ⟨h1, h2⟩ := (C08_get_sims _ _ _ _ _).1 h
  refine ⟨xs, h, ?_⟩
  have h1 : xs.length = 2 := h1
  have h3 := h2 1 ("cow", "dog") (xs[1]'(by omega)) rfl (List.getElem?_eq_getElem (by omega))
  have h4 := C08_missing (animals .dense) (animals .dense) none sim "cow" "dog" rfl (animals_wf _) (animals_wf _) (by decide)
    (.inl (by simp [animals]))
  replace h3 := h4.symm.trans h3
  rw [List.getElem?_eq_getElem (by omega)]
  exact congrArg some (Except.ok.inj h3).symm

/-- C09, C10, C120: of four words stacked together, the two nearest. -/
example (sim : Sim) : ∃ res score, (animals .dense).getNeighbours "dog" 1 sim none = .ok res ∧
    TopNeighbours ["dog", "cat"] score 1 res ∧ (∀ p ∈ res, (animals .dense).getSim "dog" p.1 sim none = .ok p.2) ∧
    ∃ res', (animals .dense).getNeighbours "dog" 2 sim none = .ok res' ∧ res = res'.take 1 := by
  obtain ⟨res, score, h1, _, h3⟩ := C09_top_n (animals .dense) _ none sim "dog" 1 rfl (animals_wf _) (animals_wf _)
    (by decide) rfl (by simp [animals]) (by decide)
  obtain ⟨res', g1, g2⟩ := C120_prefix (animals .dense) _ none sim "dog" 1 2 (by decide) rfl (animals_wf _) (animals_wf _)
    (by decide) rfl (by simp [animals]) (by decide)
  exact ⟨res, score, h1, h3, C10_scores_are_get_sim (animals .dense) _ none sim "dog" 1 rfl (animals_wf _) (animals_wf _)
    (by decide) rfl (by decide) res h1, res', g1, Except.ok.inj (h1.symm.trans g2)⟩

/-- C09 -/
example (sim : Sim) : (animals .dense).getNeighbours "cow" 3 sim none = .error .keyError :=
  C09_unknown_word _ none sim "cow" 3 (animals_wf _) (by simp [animals])

/-- C121 -/
example (sim : Sim) : (animals .dense).getSim "dog" "red" sim (some (adjectives .sparse)) =
    (adjectives .sparse).getSim "red" "dog" sim (some (animals .dense)) ∧
    (animals .dense).getSim "dog" "cat" sim none = (animals .dense).getSim "cat" "dog" sim none :=
  ⟨C121_symmetric _ _ sim _ _ (animals_wf _) (adjectives_wf _) (by decide) rfl,
    C121_one_space _ sim _ _ (animals_wf _) (by decide)⟩

/-- The row vector (3, 4). -/
def v34 : TMat ℝ := ⟨.dense, Mat.of 1 2 (fun _ j => if j = 0 then 3 else 4)⟩

/-- The row vector (4, 3), kept in a sparse matrix. -/
def v43 : TMat ℝ := ⟨.sparse, Mat.of 1 2 (fun _ j => if j = 0 then 4 else 3)⟩

theorem v34_row : IsRow v34 2 := ⟨rfl, rfl⟩

theorem v43_row : IsRow v43 2 := ⟨rfl, rfl⟩

theorem vlen_v34 : vlen 2 (v34.val.get 0) = 5 := by
  have h : vlen 2 (v34.val.get 0) = Real.sqrt 25 := by
    unfold vlen
    congr 1
    simp [v34, Mat.of_get, Finset.sum_range_succ]
    norm_num
  rw [h, show (25 : ℝ) = 5 ^ 2 by norm_num]
  exact Real.sqrt_sq (by norm_num)

theorem vlen_v43 : vlen 2 (v43.val.get 0) = 5 := by
  have h : vlen 2 (v43.val.get 0) = Real.sqrt 25 := by
    unfold vlen
    congr 1
    simp [v43, Mat.of_get, Finset.sum_range_succ]
    norm_num
  rw [h, show (25 : ℝ) = 5 ^ 2 by norm_num]
  exact Real.sqrt_sq (by norm_num)

/-- C13: the cosine of (3, 4) and (4, 3) is 24/25. -/
example : Sim.cos.getSim v34 v43 = .ok (24 / 25) ∧ Sim.cos.getSim v43 v34 = .ok (24 / 25) := by
  have h : Sim.cos.getSim v34 v43 = .ok (24 / 25) := by
    rw [C13_formula v34 v43 2 (by decide) v34_row v43_row, vlen_v34, vlen_v43, if_neg]
    · simp [v34, v43, Mat.of_get, Finset.sum_range_succ]
      norm_num
    · rintro (h | h)
      · have := h 0 (by decide)
        simp [v34, Mat.of_get] at this
      · have := h 0 (by decide)
        simp [v43, Mat.of_get] at this
  exact ⟨h, (C13_symmetric v34 v43 2 (by decide) v34_row v43_row).symm.trans h⟩

/-- C13 -/
example : (∃ c, Sim.cos.getSim v34 v43 = .ok c ∧ -1 ≤ c ∧ c ≤ 1) ∧ Sim.cos.getSim v34 ⟨.sparse, v34.val⟩ = .ok 1 ∧
    ∃ ta ub, v34.mulScalar 7 = .ok ta ∧ v43.mulScalar 2 = .ok ub ∧ Sim.cos.getSim ta ub = Sim.cos.getSim v34 v43 :=
  ⟨C13_bounded _ _ 2 (by decide) v34_row v43_row, C13_self _ _ 2 (by decide) v34_row 0 (by simp [v34, Mat.of_get]),
    C13_scale_free _ _ 2 (by decide) v34_row v43_row 7 2 (by norm_num) (by norm_num)⟩

/-- C14: (3, 4) has distance 5 from the origin, so the similarity is 1/6. -/
example : Sim.euclid.getSim v34 ⟨.dense, Mat.of 1 2 (fun _ _ => 0)⟩ = .ok (1 / 6) := by
  rw [C14_formula v34 ⟨.dense, Mat.of 1 2 (fun _ _ => 0)⟩ 2 (by decide) v34_row ⟨rfl, rfl⟩]
  have : (fun j => v34.val.get 0 j - (Mat.of 1 2 (fun _ _ => (0 : ℝ))).get 0 j) = v34.val.get 0 := by
    funext j
    simp [Mat.of_get]
  simp only [this, vlen_v34]
  norm_num

/-- C14 -/
example : (∃ c, Sim.euclid.getSim v34 v43 = .ok c ∧ 0 < c ∧ c ≤ 1) ∧ Sim.euclid.getSim v34 v43 = Sim.euclid.getSim v43 v34 := by
  obtain ⟨c, h1, h2, h3, _⟩ := C14_range v34 v43 2 (by decide) v34_row v43_row
  exact ⟨⟨c, h1, h2, h3⟩, C14_symmetric _ _ 2 (by decide) v34_row v43_row⟩

/-- C14: (3, 4) is nearer to itself than to the origin. -/
example : ∃ x y, Sim.euclid.getSim v34 v34 = .ok x ∧ Sim.euclid.getSim v34 ⟨.dense, Mat.of 1 2 (fun _ _ => 0)⟩ = .ok y ∧ y < x := by
  obtain ⟨x, y, h1, h2, h3⟩ := C14_strictly_decreasing v34 v34 v34 ⟨.dense, Mat.of 1 2 (fun _ _ => 0)⟩ 2 2 (by decide) (by decide)
    v34_row v34_row v34_row ⟨rfl, rfl⟩
  refine ⟨x, y, h1, h2, h3.1 ?_⟩
  have : (fun j => v34.val.get 0 j - (Mat.of 1 2 (fun _ _ => (0 : ℝ))).get 0 j) = v34.val.get 0 := by
    funext j
    simp [Mat.of_get]
  simp only [this, vlen_v34]
  simp [vlen]

/-- C15 -/
example : Sim.lin.getSim v34 v43 = .ok (linSpec 2 (v34.val.get 0) (v43.val.get 0)) ∧
    Sim.lin.getSim v34 v43 = Sim.lin.getSim v43 v34 ∧ ∃ c, Sim.lin.getSim v34 v43 = .ok c ∧ 0 ≤ c ∧ c ≤ 1 := by
  have hpos : ∀ j < 2, 0 ≤ v34.val.get 0 j ∧ 0 ≤ v43.val.get 0 j := by
    intro j _
    simp only [v34, v43, Mat.of_get]
    constructor <;> (repeat' split) <;> norm_num
  exact ⟨C15_formula_partial _ _ 2 (by decide) v34_row v43_row (fun j hj h => absurd h.1 (not_lt.2 (hpos j hj).1)),
    C15_symmetric _ _ 2 (by decide) v34_row v43_row, C15_range _ _ 2 (by decide) v34_row v43_row hpos⟩

/-- C11 -/
example (sim : Sim) : (∃ S, sim.getSimsToMatrix v34 square.mat = .ok S ∧ S.nr = 2 ∧ S.nc = 1) ∧
    sim.getSimsToMatrix v34 (animals .dense).mat = .error .valueError := by
  obtain ⟨S, h1, h2, h3, _⟩ := C11_batched_eq_pairwise sim v34 square.mat rfl rfl (by decide) (by decide)
  exact ⟨⟨S, h1, h2, h3⟩, C11_shape_mismatch sim v34 (animals .dense).mat (by decide) (by decide) (.inl (by decide))⟩

end Examples
end
end Dissect
