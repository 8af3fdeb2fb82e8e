import Verif.Examples.Objects
import Verif.Props.Invariance
import Verif.Props.ColumnOrder
import Verif.Props.PeriphBatch
import Verif.Props.Operations
import Verif.Props.World
import Verif.Props.NmfInit

/-! # Concrete instances: invariance, dimensionality reduction, peripheral spaces, histories -/

namespace Dissect
noncomputable section
open Finset
namespace Examples

/-! ## C101–C104, C106 -/

/-- C101 -/
example (env : Env) : ∃ s' t', (animals .sparse).apply env (.scaling (.norm .sum)) = .ok s' ∧
    (adjectives .dense).apply env (.scaling (.rowNorm .length)) = .ok t' ∧
    s'.getSim "dog" "cat" .cos none = (animals .sparse).getSim "dog" "cat" .cos none ∧
    s'.getSim "dog" "red" .cos (some t') = (animals .sparse).getSim "dog" "red" .cos (some (adjectives .dense)) := by
  have hn : Normalises (.norm .sum) (animals .sparse).mat.val := .inr (.inr ⟨.inr rfl, animals_nonneg _⟩)
  obtain ⟨s', hs⟩ := (C05_apply_total env (animals .sparse) (animals_wf _) (by decide) (by decide)).1 (.norm .sum) (animals_nonneg _)
  obtain ⟨t', ht⟩ := (C05_apply_total env (adjectives .dense) (adjectives_wf _) (by decide) (by decide)).1 (.rowNorm .length) (by
    intro i j _ _
    simp only [adjectives, Mat.of_get]
    (repeat' split) <;> norm_num)
  exact ⟨s', t', hs, ht, C101_cosine_unchanged env _ _ _ (animals_wf _) (by decide) (by decide) hn hs _ _,
    C101_cosine_two_spaces env _ _ _ _ _ _ (animals_wf _) (adjectives_wf _) (by decide) (by decide) (by decide) rfl hn (.inl rfl)
      hs ht _ _⟩

/-- C102 -/
example : ∃ m' r, (animals .dense).mat.mulScalar 10 = .ok m' ∧ ScalingT.plmi.apply (animals .dense).mat none = .ok r ∧
    ScalingT.ppmi.apply m' none = ScalingT.ppmi.apply (animals .dense).mat none ∧
    ScalingT.plmi.apply m' none = r.mulScalar 10 ∧
    (ScalingT.rowNorm .sum).apply m' none = (ScalingT.rowNorm .sum).apply (animals .dense).mat none := by
  have hm := TMat.mulScalar_ok (s := (animals .dense).mat) 10 (by decide) (by decide)
  obtain ⟨r, hr, _⟩ := C16_plmi (animals .dense).mat (by decide) (by decide) (animals_nonneg _)
  exact ⟨_, r, hm, hr, (C102_epmi_ppmi _ _ 10 (by norm_num) (by decide) (by decide) hm).2,
    C102_plmi _ _ r 10 (by norm_num) (by decide) (by decide) hm hr,
    (C102_normalisations _ _ 10 (by norm_num) (by decide) (by decide) .sum hm).1⟩

/-- C103: the same space with its rows in two orders, weighted and reduced. -/
example (env : Env) : ∃ s t s' t' : Space String, s.id2row ≠ t.id2row ∧ s.applyAll env [.scaling .plog, .featsel 2 .sum] = .ok s' ∧
    t.applyAll env [.scaling .plog, .featsel 2 .sum] = .ok t' ∧ ∀ sim w1 w2, s'.getSim w1 w2 sim none = t'.getSim w1 w2 sim none := by
  obtain ⟨s, t, hs, ht, hst, hne, hr, hc, hnn⟩ := ex_same_words
  have hct : 0 < t.mat.nc := by
    have := hst.shape
    have h1 := hs.shape
    have h2 := ht.shape
    rw [← this, h1] at h2
    omega
  obtain ⟨s1, h1⟩ := (C05_apply_total env s hs hr hc).1 .plog hnn
  obtain ⟨_, _, hnr, hnc, _⟩ := C05_scaling_keeps_columns env _ _ _ hr h1
  obtain ⟨wf1, _, _, hsh1, _⟩ := C05_apply env _ _ _ h1
  obtain ⟨s2, h2⟩ := (C05_apply_total env s1 wf1 (by omega) (by omega)).2 2 .sum (by decide) (by rw [hsh1]; simp)
  have ha : s.applyAll env [.scaling .plog, .featsel 2 .sum] = .ok s2 := by simp [Space.applyAll, h1, h2]
  obtain ⟨t', g1, _, g3⟩ := C103_sequences env [.scaling .plog, .featsel 2 .sum] (by
    intro tr htr
    simp at htr
    rcases htr with rfl | rfl
    · exact .inl ⟨_, rfl⟩
    · exact .inr ⟨2, .sum, by decide, rfl⟩) s t s2 hs ht hr hc hct hst ha
  exact ⟨s, t, s2, t', hne, ha, g1, g3⟩

/-- C104 -/
example : (animals .dense).getSim "cat" "cat" .cos none = .ok 1 ∧
    ∃ res, (animals .dense).getNeighbours "cat" 2 .cos none = .ok res ∧ ("cat", 1) ∈ res := by
  obtain ⟨h1, res, h2, _, _, _, h5⟩ := C104_own_neighbour (animals .dense) .cos "cat" 2 (animals_wf _) (by decide) 1 rfl
    (.inr ⟨rfl, 0, by decide, by simp [animals, exMat, Mat.of_get]⟩) (by decide)
  exact ⟨h1, res, h2, h5 (by decide)⟩

/-- C106: reversing the columns. -/
example : ∃ s t : Space String, s.id2col ≠ t.id2col ∧ ∀ sim, t.getSim "dog" "cat" sim none = s.getSim "dog" "cat" sim none ∧
    t.getNeighbours "dog" 2 sim none = s.getNeighbours "dog" 2 sim none := by
  obtain ⟨s, t, hs, ht, h, hne, _, hc, _⟩ := ex_same_features
  exact ⟨s, t, hne, fun sim => ⟨C106_similarity _ s t hs ht hc h sim _ _, C106_neighbours _ s t hs ht hc h sim _ _⟩⟩

/-! ## C21–C28 -/

/-- C21: the diagonal matrix (3, 2) reduced to one dimension. -/
example : ∃ red V, (DimRedT.svd 1).apply exEnv ⟨.dense, exDiag⟩ = .ok (red, V) ∧ red.nc = 1 ∧
    ∑ i ∈ range 2, red.val.get i 0 * red.val.get i 0 = 9 := by
  obtain ⟨red, V, h1, _, h3, h4, _, _, h7⟩ := C21_dense exEnv ⟨.dense, exDiag⟩ 1 exOne [3, 2] exOne rfl (by decide) (by decide)
    (by decide) rfl ex_isSvd ⟨3, by simp, by norm_num [svdTol]⟩
  have hn : numRank [3, 2] = 2 := by
    norm_num [numRank, svdTol]
  rw [hn] at h7
  refine ⟨red, V, h1, h7.redCols, ?_⟩
  have := C21_columns_orthogonal exDiag exOne [3, 2] exOne 1 red.val V.val ex_isSvd.triples (by decide) h7 0 0 (by decide) (by decide)
  rw [show exDiag.nr = 2 from rfl] at this
  rw [this]
  norm_num

/-- C22, C23 -/
example (env : Env) : ∃ w0 h0 w h, vColInit (animals .dense).mat 2 ⟨fun _ => [2], fun _ => [1], fun _ => false⟩ = .ok (w0, h0) ∧
    nmf (animals .dense).mat w0 h0 (fun _ => false) = .ok (w, h) ∧ NonNegative w.val ∧ NonNegative h.val ∧ w.nc = 2 ∧ h.nc = 3 := by
  obtain ⟨w0, h0, w, h, a, b, c, _, d, e, _, f, _⟩ := C22_factors env (animals .dense).mat 2 ⟨fun _ => [2], fun _ => [1], fun _ => false⟩
    (animals_nonneg _) (by decide) (by decide) (by decide)
    ⟨fun _ => rfl, fun _ => rfl, by simp [animals, exMat, TMat.nc], by simp [animals, exMat, TMat.nr]⟩
  exact ⟨w0, h0, w, h, a, b, c, e, d, f⟩

/-- C22 -/
example (env : Env) (ch : Chance) : (DimRedT.nmf 1 ch).apply env ⟨.dense, Mat.of 1 2 (fun _ j => (j : ℝ) - 1)⟩ = .error .valueError :=
  C22_rejects_negative env ⟨.dense, Mat.of 1 2 (fun _ j => (j : ℝ) - 1)⟩ 1 ch 0 0 (by decide) (by decide) (by simp [Mat.of_get])

/-- C23: from a start of ones, the error does not grow. -/
example : ∃ w h, nmf (animals .dense).mat ⟨.dense, Mat.of 2 1 (fun _ _ => 1)⟩ ⟨.dense, Mat.of 1 3 (fun _ _ => 1)⟩ (fun _ => false) =
    .ok (w, h) ∧ NonNegative w.val ∧ NonNegative h.val := by
  have ones : ∀ n m : ℕ, NonNegative (Mat.of n m (fun _ _ => 1)) := by
    intro n m i j _ _
    rw [Mat.of_get]
    split <;> norm_num
  obtain ⟨w, h, a, b, c, _⟩ := C23_nmf_not_worse (animals .dense).mat ⟨.dense, Mat.of 2 1 (fun _ _ => 1)⟩
    ⟨.dense, Mat.of 1 3 (fun _ _ => 1)⟩ (fun _ => false) (by decide) (by decide) (by decide) rfl rfl rfl rfl rfl (ones _ _) (ones _ _)
  exact ⟨w, h, a, b, c⟩

/-- C96 -/
example : ∃ w0 h0 w h, nndsvdInit exEnv ⟨.dense, exDiag⟩ 3 = .ok (w0, h0) ∧
    nmf ⟨.dense, exDiag⟩ w0 h0 (fun n => n == 5) = .ok (w, h) ∧ NonNegative w.val ∧ w.nc = 3 := by
  obtain ⟨u, s, v, w0, h0, _, _, h1, h2⟩ := C96_nndsvd_dense exEnv ⟨.dense, exDiag⟩ 3 exOne [3, 2] exOne rfl (by
    intro i j _ _
    simp only [exDiag, Mat.of_get]
    (repeat' split) <;> norm_num) (by decide) (by decide) (by decide) rfl ex_isSvd ⟨3, by simp, by norm_num [svdTol]⟩
  obtain ⟨w, h, a, b, _, _, c, _⟩ := C96_nmf_from_start _ _ _ _ 3 w0 h0 (fun n => n == 5) (by decide) (by decide) (by decide) h2
  exact ⟨w0, h0, w, h, h1, a, b, c⟩

/-- C24: the core space is reduced by SVD; the raw row of the first word gives the core's vector of that word, twice. -/
example : ∃ raw core p : Space String, raw.applyAll exEnv [.dimred (.svd 2)] = .ok core ∧
    Periph.new core ⟨.sparse, raw.mat.val.selRows [0, 0]⟩ ["new1", "new2"] none = .ok p ∧
    ∀ j, p.mat.val.get 0 j = core.mat.val.get 0 j := by
  obtain ⟨raw, core, ts, h1, h2, h3, h4, rfl, h6, h7, h8, h9, h10, _⟩ := ex_svd_core
  obtain ⟨p, g1, _, _, _, g5, _⟩ := C24_core_rows_reproduced exEnv raw core _ h1 h2 h3 h4 h6 h10 h7 .sparse [0, 0] (by simp)
    (by simp; omega) ["new1", "new2"] (by simp) rfl
  exact ⟨raw, core, p, h7, g1, g5 0 0 rfl⟩

/-- C25, C26 -/
example : ∃ raw core : Space String, raw.applyAll exEnv [.dimred (.svd 2)] = .ok core ∧ ∀ (a b : TMat ℝ) (p : Space String),
    a.nr = 1 → b.nr = 1 → a.nc = raw.mat.nc → b.nc = raw.mat.nc → b.ty = a.ty →
    ((∃ q, Periph.new core a ["x"] none = .ok q ∧ Periph.addBatches q [(b, ["y"])] = .ok p) ↔
      Periph.new core ⟨a.ty, a.val.vstack b.val⟩ ["x", "y"] none = .ok p) ∧
    (Periph.new core ⟨a.ty, a.val.vstack b.val⟩ ["x", "y"] none = .ok p → p.id2col = core.id2col ∧ p.ops = core.ops) := by
  obtain ⟨raw, core, ts, h1, h2, h3, h4, rfl, h6, h7, h8, h9, h10, h11⟩ := ex_svd_core
  refine ⟨raw, core, h7, fun a b p ha hb hac hbc hty => ⟨?_, fun hp => ?_⟩⟩
  · exact C25_batches exEnv raw core _ h1 h2 h7 h9 h3 h8 h11 a ["x"] [(b, ["y"])] (by omega) ha hac (by
      simp only [List.mem_singleton, forall_eq]
      exact ⟨by omega, hb, hty, by omega⟩) p
  · obtain ⟨a1, _, a3, _⟩ := C26_columns_of_core exEnv raw core p _ h1 h2 h7 _ _ _ hp
    exact ⟨a1, a3⟩

/-- C27: a weighting that keeps statistics is used once. -/
example (env : Env) : ∃ (op : Op String) (r : TMat ℝ),
    ((Trans.scaling .epmi).createOp : Op String).apply env (exMat .dense) = .ok (op, r) ∧
    op.apply env (exMat .sparse) = .error .illegalStateError ∧
    ((Trans.scaling .epmi).createOp : Op String).project (exMat .dense) = .error .illegalStateError := by
  obtain ⟨s', h⟩ := (C05_apply_total env (animals .dense) (animals_wf _) (by decide) (by decide)).1 .epmi (animals_nonneg _)
  unfold Space.apply at h
  obtain ⟨⟨op, r⟩, hop, _⟩ := bind_eq_ok.1 h
  exact ⟨op, r, hop, (C27_applied_once_partial env (.scaling .epmi) rfl [] [] _ (exMat .sparse) _ _ hop).2,
    C27_project_first_partial env (.scaling .epmi) rfl (by simp) [] (by simp) _⟩

/-- C28 -/
example (m : TMat ℝ) : (Periph.addRows (animals .dense) m ["cow", "dog"]).1.getRow "dog" = (animals .dense).getRow "dog" ∧
    Periph.addRows (animals .dense) m ["dog", "cow"] = (animals .dense, .error .valueError) :=
  ⟨C28_old_words_partial _ (animals_wf _) (animals_plain _) m _ _ (by simp [animals]),
    C28_first_duplicate_partial _ (animals_wf _) m _ _ (by simp [animals])⟩

/-- C28: two labels for a matrix of three rows. -/
example : (Periph.addRows (animals .dense) ⟨.dense, Mat.of 3 3 (fun _ _ => 1)⟩ ["cow", "pig"]).1.getRow "cow" = .error .indexError :=
  ((C28_refuted (animals .dense) (animals_wf _) ⟨.dense, Mat.of 3 3 (fun _ _ => 1)⟩ "cow" ["pig"] (by simp) (by simp [animals])
    (by decide)).2.1 "cow" (by simp)).2

/-- C29 -/
example (env : Env) : ((World.run env World.empty exHistory).step env (.addRows 3 (exTiny 5) [10])).1.view 0 =
    (World.run env World.empty exHistory).view 0 :=
  C29_unshared_partial env _ 3 0 _ _ (by decide) (by
    show (some 0 : Option ℕ) ≠ some 3
    decide)

end Examples
end
end Dissect
