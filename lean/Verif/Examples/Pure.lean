import Verif.Examples.Objects
import Verif.Props.ColumnOrder
import Verif.Props.Invariance
import Verif.Props.World
import Verif.Props.LoadType
import Verif.Props.SpaceApply
import Verif.Props.SvdBest
import Verif.Props.Cli

/-! # Further concrete instances: invariances, singular values, histories, command lines -/

namespace Dissect
noncomputable section
open Finset
namespace Examples

/-! ## C106, C103 -/

/-- C106: columns reversed, logarithm. -/
example (env : Env) : ∃ (s t s' t' : Space String), s.id2col ≠ t.id2col ∧ s.apply env (.scaling .plog) = .ok s' ∧
    t.apply env (.scaling .plog) = .ok t' ∧ SameFeatures (fun j => 2 - j) s' t' := by
  obtain ⟨s, t, hs, ht, h, hne, hr, hc, hn⟩ := ex_same_features
  obtain ⟨s', h'⟩ := (C05_apply_total env s hs hr hc).1 .plog hn
  obtain ⟨t', a, b, -⟩ := (C106_scaling env .plog _ s t hs ht hr hc h).1 s' h'
  exact ⟨s, t, s', t', hne, h', a, b⟩

/-- C106: columns reversed, logarithm followed by normalisation of the rows. -/
example (env : Env) : ∃ (s t s' t' : Space String), s.id2col ≠ t.id2col ∧
    s.applyAll env ([ScalingT.plog, .rowNorm .length].map .scaling) = .ok s' ∧
    t.applyAll env ([ScalingT.plog, .rowNorm .length].map .scaling) = .ok t' ∧ SameFeatures (fun j => 2 - j) s' t' := by
  obtain ⟨s, t, hs, ht, h, hne, hr, hc, hn⟩ := ex_same_features
  obtain ⟨s1, h1⟩ := (C05_apply_total env s hs hr hc).1 .plog hn
  obtain ⟨op, m, hop, -, -, hm, -, -, -, hwf, -⟩ := apply_eq_ok h1
  obtain ⟨u, e1, -, e2, e3, e4⟩ := C17_plog s.mat hr hc
  obtain rfl := ok_inj (e1.symm.trans (opApply_scaling hop).2)
  obtain ⟨s', h2⟩ := (C05_apply_total env s1 hwf (by rw [hm, e2]; exact hr) (by rw [hm, e3]; exact hc)).1 (.rowNorm .length) (by
    intro i j hi hj
    rw [hm] at hi hj ⊢
    rw [e4 i j (by rw [← e2]; exact hi) (by rw [← e3]; exact hj)]
    beta_reduce
    split
    · exact Real.log_nonneg ‹_›
    · exact le_refl _)
  have h' : s.applyAll env ([ScalingT.plog, .rowNorm .length].map .scaling) = .ok s' := by
    simp only [List.map_cons, List.map_nil, Space.applyAll, h1, h2, ok_bind]
  obtain ⟨t', a, b, -⟩ := C106_sequences env [.plog, .rowNorm .length] _ s t s' hs ht hr hc h h'
  exact ⟨s, t, s', t', hne, h', a, b⟩

/-! ## C103 -/

example (env : Env) : ∃ (s t s' t' : Space String), s.id2row ≠ t.id2row ∧ s.apply env (.scaling .ppmi) = .ok s' ∧
    t.apply env (.scaling .ppmi) = .ok t' ∧ SameWords s' t' := by
  obtain ⟨s, t, hs, ht, h, hne, hr, hc, hn⟩ := ex_same_words
  obtain ⟨s', hs'⟩ := (C05_apply_total env s hs hr hc).1 .ppmi hn
  have hct : 0 < t.mat.nc := by rw [← ht.shape, ← h.shape, hs.shape]; exact hc
  obtain ⟨t', a, b, -⟩ := C103_row_order env (.scaling .ppmi) (Or.inl ⟨_, rfl⟩) s t s' hs ht hr hc hct h hs'
  exact ⟨s, t, s', t', hne, hs', a, b⟩

/-! ## C21, C05 -/

theorem one_transpose : exOne.transpose = exOne :=
  Mat.ext' rfl rfl (fun i j _ _ => by
    rw [Mat.transpose_get]
    simp only [exOne, Mat.of_get]
    by_cases h : i = j
    · subst h; simp
    · simp [h, Ne.symm h, and_comm])

theorem diag_space : ∃ s : Space String, s.WF ∧ s.mat = ⟨.dense, exDiag⟩ ∧ s.id2col = ["a", "b"] ∧ s.elemShape = [2] := by
  obtain ⟨s, hs⟩ := (C01_accepts_iff (⟨.dense, exDiag⟩ : TMat ℝ) ["dog", "cat"] ["a", "b"] none none [] none).2
    ⟨by simp, by simp, by simp, by simp, rfl, fun _ => rfl, by simp⟩
  obtain ⟨h1, h2, h3, h4, _, h6, _⟩ := C01_result _ _ _ _ _ _ _ s hs
  exact ⟨s, h1, h2, h4, by rw [h6]; rfl⟩

example : ∃ red V, (DimRedT.svd 1).apply exEnv ⟨.sparse, exDiag⟩ = .ok (red, V) ∧ red.nr = 2 ∧ red.nc = 1 := by
  obtain ⟨red, V, h1, h2, h3, -⟩ := C21_sparse exEnv ⟨.sparse, exDiag⟩ 1 exOne [3, 2] exOne rfl (by decide) (by decide)
    (by decide) rfl (by rw [one_transpose]; exact ex_isSvd.triples) (by simp)
  exact ⟨red, V, h1, h2, h3⟩

example : ∃ red V, (DimRedT.svd 5).apply exEnv ⟨.dense, exDiag⟩ = .ok (red, V) := by
  obtain ⟨red, V, h1, -⟩ := C21_inner_products exEnv ⟨.dense, exDiag⟩ 5 exOne [3, 2] exOne rfl (by decide) (by decide) (by decide)
    rfl ex_isSvd ⟨3, by simp, by norm_num [svdTol]⟩ (le_trans (List.length_filter_le _ _) (by simp))
  exact ⟨red, V, h1⟩

/-- A decomposition of a matrix that is zero up to rounding. -/
def tinyEnv : Env := { exEnv with npSvd := fun _ => .ok (exOne, [0, 0], exOne) }

example : (DimRedT.svd 1).apply tinyEnv ⟨.dense, Mat.of 2 2 (fun _ _ => 0)⟩ = .error .valueError :=
  C21_dense_rank_zero tinyEnv ⟨.dense, Mat.of 2 2 (fun _ _ => 0)⟩ 1 exOne [0, 0] exOne rfl rfl
    (by intro x hx; simp at hx; subst hx; norm_num)

example : ∃ s s' : Space String, s.apply exEnv (.dimred (.svd 1)) = .ok s' ∧ s.id2col = ["a", "b"] ∧ s'.id2col = [] := by
  obtain ⟨s, hwf, hm, hc, hsh⟩ := diag_space
  obtain ⟨s', hs'⟩ := C100_total exEnv s 1 (by decide) hwf (by rw [hm]; decide) (by rw [hm]; decide) (by rw [hsh]; simp)
    (by rw [hm]) exOne [3, 2] exOne rfl (by rw [hm]; exact ex_isSvd) ⟨3, by simp, by norm_num⟩
  exact ⟨s, s', hs', hc, (C05_dimred_drops_columns exEnv s s' _ hs').1⟩

/-! ## C34 -/

theorem ones_positive : TMat.isMostlyPositive (⟨.dense, Mat.of 1 2 (fun _ j => (j : ℚ) + 1)⟩ : TMat ℚ) = true := by
  have h : TMat.countEntries (Mat.of 1 2 (fun _ j => (j : ℚ) + 1)) (fun x => decide (0 < x)) = 2 := by
    unfold TMat.countEntries
    simp only [Mat.of_nr, Mat.of_nc, Finset.sum_range_succ, Finset.sum_range_zero]
    simp [Mat.of_get]
  show decide (TMat.countEntries _ _ > 1 * 2 / 2) = true
  rw [h]
  rfl

example : MostlyPositive (Mat.of 1 2 (fun _ j => (j : ℚ) + 1)) :=
  C34_dense_true_is_right_partial _ ones_positive

example : TMat.isMostlyPositive (⟨.dense, Mat.of 1 2 (fun _ j => (j : ℚ) + 1)⟩ : TMat ℚ) = true ↔
    MostlyPositive (Mat.of 1 2 (fun _ j => (j : ℚ) + 1)) :=
  C34_dense_no_zeros_partial _ (by
    intro i j hi hj
    rw [Mat.of_get_lt (nr := 1) (nc := 2) hi hj]
    positivity)

/-! ## C02, C29, C73 -/

example (env : Env) : ∃ s, (World.run env World.empty exHistory).view 3 = some s ∧ s.WF ∧ s.id2row = [7, 9] :=
  ⟨_, rfl, C02_every_history_partial env exHistory ((exHistory_full env).1) 3 _ rfl, rfl⟩

example (env : Env) : ∃ w', (World.run env (World.empty : World ℕ) exHistory).step env (.periph 0 (exTiny 5) [6] .none) = (w', .ok ()) ∧
    w'.rowRef? 0 ≠ w'.rowRef? 4 :=
  ⟨_, rfl, (C29_default_is_unshared_partial env _ _ (World.inv_run _ World.inv_empty ((exHistory_full env).1)) 0 (exTiny 5) [6] rfl 0
    (by show 0 ≠ 4; decide)).2⟩

example : ∃ p p' : Space ℕ, Periph.addBatches p [(exTiny 2, [8]), (exTiny 3, [9])] = .ok p' ∧ p'.id2row = [7, 8, 9] ∧
    p'.getRow 7 = p.getRow 7 := by
  obtain ⟨d, hd⟩ := list2dict_of_nodup (l := [7]) (by simp)
  obtain rfl := ok_inj ((rfl : list2dict [7] = .ok (Dict.empty.set 7 0)).symm.trans hd)
  have hwf : (⟨exTiny 1, [7], [], Dict.empty.set 7 0, Dict.empty, [], [1]⟩ : Space ℕ).WF :=
    ⟨(list2dict_ok hd).1, Labels.empty, rfl, fun h => absurd rfl h, rfl⟩
  obtain ⟨h1, -, h3⟩ := C73_plain_partial _ hwf (plain_list2dict hd) [(exTiny 2, [8]), (exTiny 3, [9])] _ rfl
  exact ⟨_, _, rfl, h1, h3 7 (by simp)⟩

/-! ## C128, C68, C70, C74 -/

/-- The input is fine, the core space is missing. -/
example (L : Lib) (s : Space Str) (hu : L.undump cs!"S" = some (.space s)) (gz : Bool) :
    Refused (buildPeriphR L exFs cs!"/data/in" cs!"pkl" cs!"/out" none cs!"/data/no.pkl" gz) exFs .ioError :=
  C128_periph L exFs _ _ _ none _ gz s _ (readInput_ok.2 (.pickle ⟨cs!"S", rfl, hu⟩)) (.missing (.inr rfl))

/-- The configuration file given on the command line does not exist. -/
example (parse : Str → Py Config) :
    cliCore.parseArgs parse exFs [cs!"--input=b", cs!"/no/such.cfg"] = .error (.raised .ioError) :=
  C68_missing_config (c := cliCore) (docs := docCore) (by simp [documentedScripts]) rfl parse exFs [⟨docCore[0], .longEq, cs!"b"⟩]
    (by intro g hg; simp only [List.mem_cons, List.not_mem_nil, or_false] at hg
        subst hg; simp [Given.Valid, docCore])
    cs!"/no/such.cfg" (by simp) .ioError rfl

example (parse : Str → Py Config) :
    cliNeigh.parseArgs parse exFs [cs!"--sim_measure", cs!"cos"] = .error (.exit 1) :=
  C74_unhandled_partial parse exFs _ [] [] [] cs!"--sim_measures" cs!"cos" _
    (by rw [show [cs!"--sim_measure", cs!"cos"] = simMeasureWords cs!"cos" false ++ [] from rfl, getopt_simMeasure,
      getopt_positional (tail := []) (by intro a ha; simp at ha)]; rfl)
    rfl (by simp) (by decide) (by decide)

example (parse : Str → Py Config) : ∃ st,
    cliNeigh.parseArgs parse exFs [cs!"-i", cs!"words", cs!"-m", cs!"cos", cs!"-n", cs!"5"] = .ok st ∧
    st cs!"sim_measure" = .str cs!"cos" ∧ st cs!"in_file" = .str cs!"words" := by
  obtain ⟨st, h1, h2, h3⟩ := C70_short_partial parse exFs [⟨docNeigh[0], .shortSep 'i', cs!"words"⟩]
    [⟨docNeigh[3], .shortSep 'n', cs!"5"⟩]
    (by intro g hg; simp only [List.mem_cons, List.not_mem_nil, or_false] at hg; subst hg; simp [Given.Valid, docNeigh])
    (by intro g hg; simp only [List.mem_cons, List.not_mem_nil, or_false] at hg; subst hg; simp [Given.Valid, docNeigh])
    cs!"cos" [] (by intro a ha; simp at ha) (fun _ => none) rfl
  exact ⟨st, h1, h2, h3 docNeigh[0] (by simp [docNeigh])⟩

end Examples
end
end Dissect
