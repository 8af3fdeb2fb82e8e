import Verif.Examples.Demo
import Verif.Props.Chain
import Verif.Props.BatchDir
import Verif.Props.ScriptsAgree

/-! # The theorems on the scripts applied to concrete runs: similarities, neighbours, evaluation -/

namespace Dissect
noncomputable section
namespace Examples

/-! ## C71, C118: `compute_similarities` -/

theorem pairs_base : IsBase cs!"/data/pairs.txt" cs!"pairs.txt" := data_base (nm := cs!"pairs.txt") (by decide)
theorem pairs_name : IsFileName cs!"pairs.txt" := ⟨by decide, by decide⟩
theorem pairs_read : demoFs.read cs!"/data/pairs.txt" = .ok cs!"1 dog cat\n\n  0 cat unicorn \n" := rfl
theorem pairs_records : records cs!"1 dog cat\n\n  0 cat unicorn \n" =
    [[cs!"1", cs!"dog", cs!"cat"], [cs!"0", cs!"cat", cs!"unicorn"]] := rfl

theorem sims_free (m : Str) : demoFs.resolve (simsFile cs!"/out/x" cs!"pairs.txt" cs!"in" m) ∉ demoFs.dirs ∨
    ∀ sim, (m, sim) ∉ measureTable := by
  by_cases h : ∃ sim, (m, sim) ∈ measureTable
  · left
    obtain ⟨sim, h⟩ := h
    rw [demoFs_dirs]
    simp only [measureTable, List.mem_cons, Prod.mk.injEq, List.not_mem_nil, or_false] at h
    rcases h with ⟨rfl, _⟩ | ⟨rfl, _⟩ | ⟨rfl, _⟩ | ⟨rfl, _⟩ <;> decide
  · right; exact fun sim hs => h ⟨sim, hs⟩

theorem sims_free' {m : Str} {sim : Sim} (h : (m, sim) ∈ measureTable) :
    demoFs.resolve (simsFile cs!"/out/x" cs!"pairs.txt" cs!"in" m) ∉ demoFs.dirs :=
  (sims_free m).resolve_right (fun hn => hn sim h)

theorem sims_run : ∃ fs', computeSim demo cs!"/data/pairs.txt" [cs!"2", cs!"3"] cs!"/out/x" [cs!"lin", cs!"foo"]
    [cs!"/data/in.pkl"] demoFs = .ok fs' :=
  C71_total pairs_base pairs_name two_col three_col in_name in_from pairs_read (target := zoo) rfl zoo_wf zoo_wf zoo_cols rfl
    (by rw [pairs_records]; simp) demo_out (fun _ _ _ h => sims_free' h)

/-- The similarities are written, and the input stays as it is. -/
example : ∃ fs' out, computeSim demo cs!"/data/pairs.txt" [cs!"2", cs!"3"] cs!"/out/x" [cs!"lin", cs!"foo"]
      [cs!"/data/in.pkl"] demoFs = .ok fs' ∧
    SimFile demo zoo none .lin 1 2 cs!"1 dog cat\n\n  0 cat unicorn \n" out ∧
    fs'.read cs!"/out/x/SIMS.pairs.txt.in.lin" = .ok out ∧
    fs'.read cs!"/data/bad.txt" = demoFs.read cs!"/data/bad.txt" := by
  obtain ⟨fs', h⟩ := sims_run
  obtain ⟨c, out, c1, c2, c3⟩ := C71_scores pairs_base pairs_name two_col three_col in_name in_from h (m := cs!"lin")
    (sim := .lin) (by simp) (by decide)
  rw [pairs_read] at c1
  obtain rfl := ok_inj c1
  refine ⟨fs', out, h, c2, c3, ?_⟩
  refine C71_other_files pairs_base pairs_name two_col three_col in_name in_from h ?_
  intro m hm sim hk
  simp only [List.mem_cons, List.not_mem_nil, or_false] at hm
  rcases hm with rfl | rfl <;> decide

/-- Success by C71_succeeds, from the line-by-line condition. -/
example : ∃ fs', computeSim demo cs!"/data/pairs.txt" [cs!"2", cs!"3"] cs!"/out/x" [cs!"cos"] [cs!"/data/in.pkl"] demoFs
    = .ok fs' := by
  obtain ⟨x, hx⟩ := getSim_total .cos cs!"dog" cs!"cat" (s := zoo) (space2 := none) rfl zoo_wf zoo_wf zoo_cols rfl
  obtain ⟨y, hy⟩ := getSim_total .cos cs!"cat" cs!"unicorn" (s := zoo) (space2 := none) rfl zoo_wf zoo_wf zoo_cols rfl
  refine C71_succeeds pairs_base pairs_name two_col three_col in_name in_from pairs_read ?_ demo_out
    (fun _ _ _ h => sims_free' h)
  intro m hm sim hk
  simp only [List.mem_singleton] at hm
  subst hm
  have : sim = .cos := by
    simp only [measureTable, List.mem_cons, Prod.mk.injEq, List.not_mem_nil, or_false] at hk
    rcases hk with ⟨_, h⟩ | ⟨h, _⟩ | ⟨h, _⟩ | ⟨h, _⟩
    · exact h
    all_goals exact absurd h (by decide)
  subst this
  exact ⟨_, [_, _], .cons ⟨cs!"dog", cs!"cat", x, rfl, rfl, hx, rfl⟩ (.cons ⟨cs!"cat", cs!"unicorn", y, rfl, rfl, hy, rfl⟩ .nil), rfl⟩

example : computeSim demo cs!"/data/pairs.txt" [cs!"2", cs!"3"] cs!"/out/x" [cs!"foo"] [cs!"/data/in.pkl"] demoFs = .ok demoFs :=
  C71_unknown_measures pairs_base two_col three_col in_name in_from (by
    intro m hm sim
    simp only [List.mem_singleton] at hm
    subst hm
    cases sim <;> decide)

theorem demo_order : ∀ l, (demo.dirOrder l).Perm l := fun l => List.Perm.refl l

theorem demo_names : demoFs.NamesOk := by
  show ∀ p ∈ demoDirs ++ demoFiles.map Prod.fst, ∀ c ∈ p, '/' ∉ c
  decide

/-- One space in the directory, next to a file that is no pickle. -/
example : ∃ fs' out, computeSimBatch demo cs!"/data/pairs.txt" [cs!"2", cs!"3"] cs!"/out/x" [cs!"lin"] cs!"/cores" demoFs = .ok fs' ∧
    SimFile demo zoo none .lin 1 2 cs!"1 dog cat\n\n  0 cat unicorn \n" out ∧
    fs'.read cs!"/out/x/SIMS.pairs.txt.in.lin" = .ok out := by
  have hfrom : SpacesFrom demo demoFs [cs!"/cores/in.pkl"] zoo none := .one ⟨cs!"S", rfl, demo_undump_S⟩ (by simp)
  have hname : SpacesName [cs!"/cores/in.pkl"] cs!"in" :=
    .one (by simp) ⟨cs!"in.pkl", ⟨by decide, Or.inr ⟨cs!"/cores", rfl⟩⟩, Or.inl ⟨cs!"pkl", by decide, rfl⟩⟩
  obtain ⟨fs', h⟩ : ∃ fs', computeSim demo cs!"/data/pairs.txt" [cs!"2", cs!"3"] cs!"/out/x" [cs!"lin"] [cs!"/cores/in.pkl"] demoFs
      = .ok fs' :=
    C71_total pairs_base pairs_name two_col three_col hname hfrom pairs_read (target := zoo) rfl zoo_wf zoo_wf zoo_cols rfl
      (by rw [pairs_records]; simp) demo_out (fun _ _ _ h => sims_free' h)
  have hl : demoFs.listdir demo.dirOrder (withSlash cs!"/cores") = .ok [cs!"in.pkl", cs!"read.me"] := rfl
  have he : demoFs.exists_ cs!"/cores" = true := by decide
  have hf : [cs!"in.pkl", cs!"read.me"].filter isPkl = [cs!"in.pkl"] := by decide
  have hrun : computeSimBatch demo cs!"/data/pairs.txt" [cs!"2", cs!"3"] cs!"/out/x" [cs!"lin"] cs!"/cores" demoFs = .ok fs' := by
    have hw : withSlash cs!"/cores" ++ cs!"in.pkl" = cs!"/cores/in.pkl" := by decide
    simp only [computeSimBatch, he, if_true, hl, ok_bind, hf, forFs, hw, h]
  obtain ⟨c, out, c1, c2, c3⟩ := C71_batch pairs_base pairs_name two_col three_col demo_names demo_order hrun
    (st := cs!"in") (s := zoo) (by decide) ⟨cs!"S", rfl, demo_undump_S⟩ (m := cs!"lin") (sim := .lin) (by simp) (by decide)
  rw [pairs_read] at c1
  obtain rfl := ok_inj c1
  exact ⟨fs', out, hrun, c2, c3⟩

/-- C118: the output of the run above is evaluated against its first column; `unicorn` is not in the space, so that its
similarity is 0, and the numbers are those read back from six decimals. -/
example : ∃ fs' x y r, computeSim demo cs!"/data/pairs.txt" [cs!"2", cs!"3"] cs!"/out/x" [cs!"lin", cs!"foo"]
      [cs!"/data/in.pkl"] demoFs = .ok fs' ∧
    zoo.getSim cs!"dog" cs!"cat" .lin none = .ok x ∧ |y - x| ≤ 1 / 2000000 ∧ auc [((1 : ℕ) : ℝ), ((0 : ℕ) : ℝ)] [y, 0] = .ok r ∧
    evaluateSim demo fs' cs!"/out/x/SIMS.pairs.txt.in.lin" [cs!"1", cs!"4"] [cs!"auc"] = .ok [(cs!"auc", r)] := by
  obtain ⟨fs', h⟩ := sims_run
  obtain ⟨x, hx⟩ := getSim_total .lin cs!"dog" cs!"cat" (s := zoo) (space2 := none) rfl zoo_wf zoo_wf zoo_cols rfl
  obtain ⟨y, hy, hxy⟩ := viaDec_bound x
  have hz := C08_missing zoo zoo none .lin cs!"cat" cs!"unicorn" rfl zoo_wf zoo_wf zoo_cols (Or.inr (by decide))
  have h0 : parseDec (fmtDec 0) = some 0 := fmtDec_small (by norm_num)
  obtain ⟨r, hr⟩ : ∃ r, auc [((1 : ℕ) : ℝ), ((0 : ℕ) : ℝ)] [y, 0] = .ok r := by
    unfold auc pointSet pointSet pointSet
    simp
  refine ⟨fs', x, y, r, h, hx, hxy, hr, ?_⟩
  refine (C118_chain (m := cs!"lin") (sim := .lin) (n := 3) (k := 0) (fun x => fmtDec_word x) pairs_base pairs_name two_col three_col
    in_name in_from h (by simp) (by decide) pairs_read (by rw [pairs_records]; simp) one_col (c := cs!"4") rfl (by omega)).2
    ⟨[((1 : ℕ) : ℝ), ((0 : ℕ) : ℝ)], [y, 0], ?_, ?_, .cons ⟨rfl, hr⟩ .nil⟩
  · rw [pairs_records]
    exact .cons ⟨cs!"1", rfl, parse_digit (c := '1') (by simp)⟩ (.cons ⟨cs!"0", rfl, parse_digit (c := '0') (by simp)⟩ .nil)
  · rw [pairs_records]
    exact .cons ⟨_, _, x, rfl, rfl, hx, hy⟩ (.cons ⟨_, _, 0, rfl, rfl, hz, h0⟩ .nil)

/-! ## C82: `compute_neighbours` -/

theorem words_base : IsBase cs!"/data/words.txt" cs!"words.txt" := data_base (nm := cs!"words.txt") (by decide)
theorem words_read : demoFs.read cs!"/data/words.txt" = .ok cs!"cat\n dog \n" := rfl
theorem words_lines : textLines cs!"cat\n dog \n" = [cs!"cat", cs!"dog"] := rfl
theorem neigh_free : demoFs.resolve (neighboursFile cs!"/out/x" cs!"words.txt" cs!"in" cs!"cos") ∉ demoFs.dirs := by
  rw [demoFs_dirs]; decide

theorem neigh_run : ∃ fs', computeNeighbours demo cs!"/data/words.txt" 1 cs!"/out/x" cs!"cos" [cs!"/data/in.pkl"] demoFs = .ok fs' :=
  C82_total words_base in_name in_from (sim := .cos) (by decide) words_read (target := zoo) rfl zoo_wf zoo_wf zoo_cols rfl
    (by decide) (by rw [words_lines]; decide) demo_out neigh_free

example : ∃ fs' b1 b2, computeNeighbours demo cs!"/data/words.txt" 1 cs!"/out/x" cs!"cos" [cs!"/data/in.pkl"] demoFs = .ok fs' ∧
    NeighbourBlock demo zoo none .cos 1 cs!"cat" b1 ∧ NeighbourBlock demo zoo none .cos 1 cs!"dog" b2 ∧
    fs'.read cs!"/out/x/NEIGHBOURS.words.txt.in.cos" = .ok (b1 ++ b2) ∧
    fs'.read cs!"/data/in.pkl" = .ok cs!"S" := by
  obtain ⟨fs', h⟩ := neigh_run
  obtain ⟨c, bs, c1, c2, c3⟩ := C82_neighbours words_base in_name in_from (sim := .cos) (by decide) h
  rw [words_read] at c1
  obtain rfl := ok_inj c1
  rw [words_lines] at c2
  cases c2 with
  | @cons _ b1 _ _ a1 a2 =>
    cases a2 with
    | @cons _ b2 _ _ a3 a4 =>
      cases a4
      refine ⟨fs', b1, b2, h, a1, a3, ?_, ?_⟩
      · show fs'.read (neighboursFile cs!"/out/x" cs!"words.txt" cs!"in" cs!"cos") = _
        rw [c3]; simp
      rw [C82_other_files words_base in_name in_from (sim := .cos) (by decide) h (p := cs!"/data/in.pkl") (by decide)]
      rfl

/-- Success by C82_succeeds, with a count that exceeds the number of words. -/
example : ∃ fs', computeNeighbours demo cs!"/data/words.txt" 7 cs!"/out/x" cs!"cos" [cs!"/data/in.pkl"] demoFs = .ok fs' := by
  refine C82_succeeds words_base in_name in_from (sim := .cos) (by decide) words_read ?_ demo_out neigh_free
  rw [words_lines]
  intro w hw
  obtain ⟨res, _, h, _⟩ := C09_top_n zoo zoo none .cos w 7 rfl zoo_wf zoo_wf zoo_cols rfl (by
    revert hw; revert w; decide) (by decide)
  exact ⟨res, h⟩

/-- C148: `cat` is printed as a neighbour of `dog` (all words are asked for), with the score that stands in the similarity
file next to `1 dog cat`. -/
example : ∃ (fsN fsS : Fs) (es : List (Str × Str)) (e1 : List (Str × Str)) (shown s2 : Str),
    computeNeighbours demo cs!"/data/words.txt" 7 cs!"/out/x" cs!"cos" [cs!"/data/in.pkl"] demoFs = .ok fsN ∧
    computeSim demo cs!"/data/pairs.txt" [cs!"2", cs!"3"] cs!"/out/x" [cs!"lin", cs!"cos"] [cs!"/data/in.pkl"] demoFs = .ok fsS ∧
    (cs!"cat", shown) ∈ es ∧
    fsN.read cs!"/out/x/NEIGHBOURS.words.txt.in.cos" = .ok (blockText cs!"cat" e1 ++ blockText cs!"dog" es) ∧
    fsS.read cs!"/out/x/SIMS.pairs.txt.in.cos" = .ok (scoreText cs!"1 dog cat" shown ++ scoreText cs!"0 cat unicorn" s2) := by
  obtain ⟨fsN, hN⟩ : ∃ fs', computeNeighbours demo cs!"/data/words.txt" 7 cs!"/out/x" cs!"cos" [cs!"/data/in.pkl"] demoFs = .ok fs' :=
    C82_total words_base in_name in_from (sim := .cos) (by decide) words_read (target := zoo) rfl zoo_wf zoo_wf zoo_cols rfl
      (by decide) (by rw [words_lines]; decide) demo_out neigh_free
  obtain ⟨fsS, hS⟩ : ∃ fs', computeSim demo cs!"/data/pairs.txt" [cs!"2", cs!"3"] cs!"/out/x" [cs!"lin", cs!"cos"]
      [cs!"/data/in.pkl"] demoFs = .ok fs' :=
    C71_total pairs_base pairs_name two_col three_col in_name in_from pairs_read (target := zoo) rfl zoo_wf zoo_wf zoo_cols rfl
      (by rw [pairs_records]; simp) demo_out (fun _ _ _ h => sims_free' h)
  obtain ⟨words, pairs, es, ss, r1, r2, l1, l2, f1, f2, n1, key⟩ := C148_same_scores (sim := .cos) words_base pairs_base pairs_name
    two_col three_col in_name in_from in_from (target := zoo) rfl zoo_wf zoo_wf zoo_cols rfl (by decide)
    (m := cs!"cos") (by simp) (by decide) hN hS
  rw [words_read] at r1
  rw [pairs_read] at r2
  obtain rfl := ok_inj r1
  obtain rfl := ok_inj r2
  have pl : textLines cs!"1 dog cat\n\n  0 cat unicorn \n" = [cs!"1 dog cat", cs!"0 cat unicorn"] := rfl
  rw [words_lines] at l1 f1 n1 key
  rw [pl] at l2 f2 key
  match es, ss, l1, l2 with
  | [e1, e2], [s1, s2], _, _ =>
    obtain ⟨ns, g1, g2⟩ := n1 1 cs!"dog" e2 rfl rfl
    obtain ⟨ns', score, g1', _, htop⟩ := C09_top_n zoo zoo none .cos cs!"dog" 7 rfl zoo_wf zoo_wf zoo_cols rfl (by decide) (by decide)
    rw [g1] at g1'
    obtain rfl := ok_inj g1'
    have hin : ∃ x, (cs!"cat", x) ∈ ns := by
      have hl := htop.length
      have hd := htop.distinct
      have he := htop.entries
      have hz : zoo.id2row = [cs!"dog", cs!"cat"] := rfl
      rw [hz] at hl he
      have hl2 : ns.length = 2 := by
        simp only [List.length_cons, List.length_nil] at hl
        omega
      match ns, hl2 with
      | [p, q], _ =>
        have h1 := (he p (by simp)).1
        have h2 := (he q (by simp)).1
        simp only [List.map_cons, List.map_nil, List.nodup_cons, List.mem_singleton] at hd
        simp only [List.mem_cons, List.not_mem_nil, or_false] at h1 h2
        rcases h1 with h1 | h1
        · rcases h2 with h2 | h2
          · exact absurd (h1.trans h2.symm) hd.1
          · exact ⟨q.2, by rw [← h2]; simp⟩
        · exact ⟨p.2, by rw [← h1]; simp⟩
    obtain ⟨x, hx⟩ := hin
    have hmem : (cs!"cat", demo.strNum x) ∈ e2 := by rw [g2]; exact List.mem_map.2 ⟨_, hx, rfl⟩
    have := key 1 0 cs!"dog" cs!"cat" _ cs!"1 dog cat" s1 e2 rfl rfl hmem rfl rfl rfl rfl
    subst this
    exact ⟨fsN, fsS, e2, e1, _, s2, hN, hS, hmem, by
      show fsN.read (neighboursFile cs!"/out/x" cs!"words.txt" cs!"in" cs!"cos") = _
      rw [f1]; simp, by
      show fsS.read (simsFile cs!"/out/x" cs!"pairs.txt" cs!"in" cs!"cos") = _
      rw [f2]; simp⟩

example : computeNeighbours demo cs!"/data/words.txt" 1 cs!"/out/x" cs!"manhattan" [cs!"/data/in.pkl"] demoFs = .error .valueError :=
  C82_unknown_measure (by intro sim; cases sim <;> decide)

/-! ## C83, C88: `evaluate_similarities` -/

theorem gold_read : demoFs.read cs!"/sims/gold.txt" = .ok cs!"1 dog 2\n0 cat 1\n" := rfl
theorem gold_records : records cs!"1 dog 2\n0 cat 1\n" = [[cs!"1", cs!"dog", cs!"2"], [cs!"0", cs!"cat", cs!"1"]] := rfl

theorem gold_first : List.Forall₂ (NumberIn demo.io 0) [[cs!"1", cs!"dog", cs!"2"], [cs!"0", cs!"cat", cs!"1"]] [((1 : ℕ) : ℝ), ((0 : ℕ) : ℝ)] :=
  .cons ⟨cs!"1", rfl, parse_digit (c := '1') (by simp)⟩ (.cons ⟨cs!"0", rfl, parse_digit (c := '0') (by simp)⟩ .nil)

theorem gold_third : List.Forall₂ (NumberIn demo.io 2) [[cs!"1", cs!"dog", cs!"2"], [cs!"0", cs!"cat", cs!"1"]] [((2 : ℕ) : ℝ), ((1 : ℕ) : ℝ)] :=
  .cons ⟨cs!"2", rfl, parse_digit (c := '2') (by simp)⟩ (.cons ⟨cs!"1", rfl, parse_digit (c := '1') (by simp)⟩ .nil)

theorem eval_run : evaluateSim demo demoFs cs!"/sims/gold.txt" [cs!"1", cs!"3"] [cs!"pearson"] = .ok [(cs!"pearson", 1)] :=
  (C83_scores one_col three_col).2 ⟨_, [((1 : ℕ) : ℝ), ((0 : ℕ) : ℝ)], [((2 : ℕ) : ℝ), ((1 : ℕ) : ℝ)], gold_read,
    by rw [gold_records]; exact gold_first, by rw [gold_records]; exact gold_third, .cons ⟨rfl, rfl⟩ .nil⟩

/-- The only file of the directory that contains `gold`. -/
example : evaluateSimBatch demo demoFs cs!"/sims" [cs!"1", cs!"3"] [cs!"pearson"] cs!"gold" = .ok [(cs!"gold.txt", [(cs!"pearson", 1)])] ∧
    ∀ r, evaluateSimBatch demo demoFs cs!"/sims" [cs!"1", cs!"3"] [cs!"pearson"] cs!"gold" = .ok r → r.map Prod.fst = [cs!"gold.txt"] := by
  constructor
  · have hl : demoFs.listdir demo.dirOrder (withSlash cs!"/sims") = .ok [cs!"gold.txt"] := rfl
    have he : demoFs.exists_ cs!"/sims" = true := by decide
    have hf : [cs!"gold.txt"].filter (fun f => containsStr f cs!"gold") = [cs!"gold.txt"] := by decide
    have hw : withSlash cs!"/sims" ++ cs!"gold.txt" = cs!"/sims/gold.txt" := by decide
    simp only [evaluateSimBatch, he, if_true, hl, ok_bind, hf, evalLoop, hw, eval_run, pure_eq_ok]
  · intro r h
    have := (C83_batch demo_order h).1
    have hc : (demoFs.children (demoFs.resolve (withSlash cs!"/sims"))).filter (fun f => decide (cs!"gold" <:+: f)) = [cs!"gold.txt"] := by
      decide
    rw [hc] at this
    exact List.perm_singleton.1 this

example : evaluateSim demo demoFs cs!"/sims/gold.txt" [cs!"1"] [cs!"pearson"] = .error .valueError ∧
    evaluateSim demo demoFs cs!"/sims/gold.txt" [cs!"1", cs!"3x"] [cs!"pearson"] = .error .valueError :=
  ⟨C83_bad_columns (.inl (by decide)), C83_bad_columns (.inr ⟨_, _, .valueError, rfl, .inr ⟨⟨_, one_col⟩, rfl⟩⟩)⟩

/-- The second line of `/data/bad.txt` has two fields only. -/
example (measures : List Str) (r : List (Str × ℝ)) : evaluateSim demo demoFs cs!"/data/bad.txt" [cs!"1", cs!"3"] measures ≠ .ok r :=
  (C88_missing_column_partial (L := demo) (fs := demoFs) (base := cs!"bad.txt") (words := [cs!"0", cs!"cat"]) one_col three_col
    (content := cs!"1 dog cat\n0 cat\nx dog dog\n") rfl (by decide) (.inr (by decide))).1 measures r

/-! ## C108: bad directories -/

example : BatchAllRaise demo demoFs cs!"/nowhere" .valueError ∧ BatchAllRaise demo demoFs cs!"/data/in.pkl" .osError :=
  ⟨C108_missing demo demoFs _ (by decide), C108_regular_file demo demoFs _ (by decide) (by decide) (by decide) (by decide)⟩

/-- An empty directory, and a directory in which nothing matches. -/
example (inFile outDir : Str) (columns measures : List Str) :
    computeSimBatch demo inFile columns outDir measures cs!"/empty" demoFs = .ok demoFs ∧
    evaluateSimBatch demo demoFs cs!"/sims" columns measures cs!"zzz" = .ok [] :=
  ⟨(C108_no_match demo demoFs cs!"/empty" (by decide) (by decide) demo_order).1 (by decide) inFile columns outDir measures,
    (C108_no_match demo demoFs cs!"/sims" (by decide) (by decide) demo_order).2.1 cs!"zzz" (by decide) columns measures⟩

/-! ## C132: malformed lines -/

theorem bad_read : demoFs.read cs!"/data/bad.txt" = .ok cs!"1 dog cat\n0 cat\nx dog dog\n" := rfl
theorem bad_records : records cs!"1 dog cat\n0 cat\nx dog dog\n" =
    [[cs!"1", cs!"dog", cs!"cat"]] ++ [cs!"0", cs!"cat"] :: [[cs!"x", cs!"dog", cs!"dog"]] := rfl

/-- The first line has no number in its second column. -/
example (measures : List Str) : evaluateSim demo demoFs cs!"/data/bad.txt" [cs!"1", cs!"2"] measures = .error .valueError :=
  C132_evaluate (pre := []) one_col two_col bad_read (by rw [bad_records]; rfl) (by simp)
    (.secondNoNumber ⟨cs!"1", rfl, parse_digit (c := '1') (by simp)⟩ (w := cs!"dog") rfl (by
      show parseDec cs!"dog" = none
      unfold parseDec parseUnsigned
      simp [isDig]))

/-- With column 1 twice the third line decides. -/
example (measures : List Str) : evaluateSim demo demoFs cs!"/data/bad.txt" [cs!"1", cs!"1"] measures = .error .valueError :=
  C132_evaluate (pre := [[cs!"1", cs!"dog", cs!"cat"], [cs!"0", cs!"cat"]]) (bad := [cs!"x", cs!"dog", cs!"dog"]) (post := [])
    one_col one_col bad_read rfl
    (by
      intro r hr
      simp only [List.mem_cons, List.not_mem_nil, or_false] at hr
      rcases hr with rfl | rfl
      · exact ⟨⟨_, cs!"1", rfl, parse_digit (c := '1') (by simp)⟩, _, cs!"1", rfl, parse_digit (c := '1') (by simp)⟩
      · exact ⟨⟨_, cs!"0", rfl, parse_digit (c := '0') (by simp)⟩, _, cs!"0", rfl, parse_digit (c := '0') (by simp)⟩)
    (.firstNoNumber (w := cs!"x") rfl parse_x)

/-- The second line of the list of pairs lacks the third column. -/
example (ms : List Str) : computeSim demo cs!"/data/bad.txt" [cs!"2", cs!"3"] cs!"/out/x" ([cs!"foo"] ++ cs!"lin" :: ms)
    [cs!"/data/in.pkl"] demoFs = .error .indexError := by
  obtain ⟨x, hx⟩ := getSim_total .lin cs!"dog" cs!"cat" (s := zoo) (space2 := none) rfl zoo_wf zoo_wf zoo_cols rfl
  refine C132_similarities (sim := .lin) (pre := [cs!"1 dog cat"]) (bad := cs!"0 cat") (post := [cs!"x dog dog"])
    (data_base (nm := cs!"bad.txt") (by decide)) ⟨by decide, by decide⟩ two_col three_col in_name in_from bad_read ?_ (by decide) demo_out
    (by rw [demoFs_dirs]; decide) rfl ?_ (.missing (.inr (by decide)))
  · intro u hu sim
    simp only [List.mem_singleton] at hu
    subst hu
    cases sim <;> decide
  · intro l hl
    simp only [List.mem_singleton] at hl
    subst hl
    exact ⟨_, cs!"dog", cs!"cat", x, rfl, rfl, hx, rfl⟩

/-- A word that is not in the space: the first line of `/data/tr.txt` is no word of the space. -/
example : computeNeighbours demo cs!"/data/tr.txt" 1 cs!"/out/x" cs!"cos" [cs!"/data/in.pkl"] demoFs = .error .keyError :=
  C132_neighbours (sim := .cos) (pre := []) (bad := cs!"dog cat dog") (post := [cs!"cat dog cat"])
    (data_base (nm := cs!"tr.txt") (by decide)) in_name in_from (by decide) (content := cs!"dog cat dog\n\ncat dog cat\n") rfl rfl
    (by simp) rfl demo_out (by rw [demoFs_dirs]; decide)

/-! ## Command lines -/

/-- `train_composition ... --lambda x`. -/
example : mainTrain demo demoFs [cs!"-i", cs!"/data/tr.txt", cs!"-o", cs!"/out/x", cs!"-m", cs!"full_add", cs!"--lambda=x",
    cs!"-a", cs!"/data/in.pkl", cs!"-p", cs!"/data/in.pkl"] = .error (.raised .valueError) := by
  obtain ⟨st, h1, h2⟩ := parse_values trainOpts_ok demo.parseCfg demoFs
    [⟨docTrain[0], .shortSep 'i', cs!"/data/tr.txt"⟩, ⟨docTrain[1], .shortSep 'o', cs!"/out/x"⟩,
      ⟨docTrain[2], .shortSep 'm', cs!"full_add"⟩, ⟨docTrain[5], .longEq, cs!"x"⟩, ⟨docTrain[7], .shortSep 'a', cs!"/data/in.pkl"⟩,
      ⟨docTrain[8], .shortSep 'p', cs!"/data/in.pkl"⟩]
    (by
      intro g hg
      simp only [List.mem_cons, List.not_mem_nil, or_false] at hg
      rcases hg with rfl | rfl | rfl | rfl | rfl | rfl <;> simp [Given.Valid, docTrain, trainOpts])
    [] (by intro a ha; cases ha) (fun _ => none) rfl
  have hlog : st cs!"log_file" = .none := h2 docTrain[10] (by decide)
  have hcv : st cs!"crossvalidation" = .str cs!"False" := h2 trainOpts[0] (by decide)
  have hic : st cs!"intercept" = .str cs!"True" := h2 docTrain[4] (by decide)
  have hex : st cs!"export_params" = .str cs!"False" := h2 docTrain[9] (by decide)
  refine C132_train_numbers (fs1 := demoFs) (cv := false) (ic := true) (ex := false) (model := cs!"full_add") h1 ?_ ?_ ?_ ?_
    (h2 docTrain[2] (by decide)) (h2 docTrain[0] (by decide)) (h2 docTrain[1] (by decide)) (h2 docTrain[7] (by decide))
    (h2 docTrain[8] (by decide)) (.inl ⟨cs!"x", h2 docTrain[5] (by decide), parse_x⟩)
  · rw [hlog]; rfl
  · rw [hcv]; exact demo_false
  · rw [hic]; exact demo_true
  · rw [hex]; exact demo_false

theorem applyOpts_ok : cliApply.ok docApply = true := by decide

/-- `apply_composition ... -m mult --alpha x`, although multiplication has no parameter. -/
example : mainApply demo demoFs [cs!"-i", cs!"/data/tr.txt", cs!"-o", cs!"/out/x", cs!"-m", cs!"mult", cs!"--alpha=x",
    cs!"-a", cs!"/data/in.pkl"] = .error (.raised .valueError) := by
  obtain ⟨st, h1, h2⟩ := parse_values applyOpts_ok demo.parseCfg demoFs
    [⟨docApply[0], .shortSep 'i', cs!"/data/tr.txt"⟩, ⟨docApply[1], .shortSep 'o', cs!"/out/x"⟩,
      ⟨docApply[2], .shortSep 'm', cs!"mult"⟩, ⟨docApply[3], .longEq, cs!"x"⟩, ⟨docApply[7], .shortSep 'a', cs!"/data/in.pkl"⟩]
    (by
      intro g hg
      simp only [List.mem_cons, List.not_mem_nil, or_false] at hg
      rcases hg with rfl | rfl | rfl | rfl | rfl <;> simp [Given.Valid, docApply])
    [] (by intro a ha; cases ha) (fun _ => none) rfl
  have hlog : st cs!"log_file" = .none := h2 docApply[9] (by decide)
  have hm : st cs!"model" = .str cs!"mult" := h2 docApply[2] (by decide)
  have ht : st cs!"trained_model" = .none := h2 docApply[6] (by decide)
  refine C132_apply_numbers (fs1 := demoFs) h1 ?_ (h2 docApply[0] (by decide)) (h2 docApply[1] (by decide)) ?_
    (h2 docApply[7] (by decide)) ⟨cs!"alpha", by simp, cs!"x", h2 docApply[3] (by decide), parse_x⟩
  · rw [hlog]; rfl
  · rw [hm, ht]; rfl

/-- `apply_composition` with both a model name and a stored model. -/
example : mainApply demo demoFs [cs!"-i", cs!"/data/tr.txt", cs!"-o", cs!"/out/x", cs!"-m", cs!"mult", cs!"--load_model=/data/m.pkl",
    cs!"-a", cs!"/data/in.pkl"] = .error (.exit 1) := by
  obtain ⟨st, h1, h2⟩ := parse_values applyOpts_ok demo.parseCfg demoFs
    [⟨docApply[0], .shortSep 'i', cs!"/data/tr.txt"⟩, ⟨docApply[1], .shortSep 'o', cs!"/out/x"⟩,
      ⟨docApply[2], .shortSep 'm', cs!"mult"⟩, ⟨docApply[6], .longEq, cs!"/data/m.pkl"⟩, ⟨docApply[7], .shortSep 'a', cs!"/data/in.pkl"⟩]
    (by
      intro g hg
      simp only [List.mem_cons, List.not_mem_nil, or_false] at hg
      rcases hg with rfl | rfl | rfl | rfl | rfl <;> simp [Given.Valid, docApply])
    [] (by intro a ha; cases ha) (fun _ => none) rfl
  have hlog : st cs!"log_file" = .none := h2 docApply[9] (by decide)
  have hm : st cs!"model" = .str cs!"mult" := h2 docApply[2] (by decide)
  have ht : st cs!"trained_model" = .str cs!"/data/m.pkl" := h2 docApply[6] (by decide)
  refine C79_xor (fs1 := demoFs) h1 ?_ (h2 docApply[0] (by decide)) (h2 docApply[1] (by decide)) ?_
  · rw [hlog]; rfl
  · rw [hm, ht]; rfl

theorem neighOpts_ok : cliNeigh.ok docNeigh = true := by decide

/-- `compute_neighbours -n many`. -/
example : mainNeigh demo demoFs [cs!"-n", cs!"many"] = .error (.raised .valueError) := by
  obtain ⟨st, h1, h2⟩ := parse_values neighOpts_ok demo.parseCfg demoFs [⟨docNeigh[3], .shortSep 'n', cs!"many"⟩]
    (by
      intro g hg
      simp only [List.mem_singleton] at hg
      subst hg
      simp [Given.Valid, docNeigh])
    [] (by intro a ha; cases ha) (fun _ => none) rfl
  have hlog : st cs!"log_file" = .none := h2 docNeigh[4] (by decide)
  have hn : st cs!"no_neighbours" = .str cs!"many" := h2 docNeigh[3] (by decide)
  refine C132_count (fs1 := demoFs) h1 (by rw [hlog]; rfl) ?_
  rw [hn]
  intro n hw
  have := C132_whole_numbers.1 n |>.2 hw
  cases this

end Examples
end
end Dissect
