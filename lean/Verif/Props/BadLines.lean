import Verif.Props.Neighbours
import Verif.Props.Training
import Verif.Props.ApplyComp
import Mathlib.Data.Nat.Digits.Defs

/-! # C132: malformed lines and numbers given to the scripts: the first one decides, and how

`evaluate_similarities.py:69-73`, `compute_similarities.py:118-128`, `compute_neighbours.py:85-91`,
`train_composition.py:227-230`, `apply_composition.py:187-192`. -/

namespace Dissect
noncomputable section

/-- What is wrong with a record of numbers (columns `i` and `j` counted from 0; the first one is looked at first) and the
exception that this has to cause. -/
inductive BadRecord (io : NumIO) (i j : ℕ) : List Str → PyErr → Prop
  | firstMissing {words : List Str} : words.length ≤ i → BadRecord io i j words .indexError
  | firstNoNumber {words : List Str} {w : Str} : words[i]? = some w → io.parse w = none → BadRecord io i j words .valueError
  | secondMissing {words : List Str} {x : ℝ} : NumberIn io i words x → words.length ≤ j → BadRecord io i j words .indexError
  | secondNoNumber {words : List Str} {x : ℝ} {w : Str} : NumberIn io i words x → words[j]? = some w → io.parse w = none →
      BadRecord io i j words .valueError

/-- What is wrong with a line of words whose similarity is wanted. -/
inductive BadPair (s : Space Str) (s2 : Option (Space Str)) (sim : Sim) (i j : ℕ) : List Str → PyErr → Prop
  | missing {words : List Str} : words.length ≤ i ∨ words.length ≤ j → BadPair s s2 sim i j words .indexError
  | undefined {words : List Str} {w1 w2 : Str} {e : PyErr} : words[i]? = some w1 → words[j]? = some w2 →
      s.getSim w1 w2 sim s2 = .error e → BadPair s s2 sim i j words e

theorem pyFloat_none {io : NumIO} {s : Str} (h : io.parse s = none) : pyFloat io s = .error .valueError := by
  unfold pyFloat; rw [h]

theorem goldPrediction_bad {io : NumIO} {i j : ℕ} {e : PyErr} {bad : List Str} {post : List (List Str)} :
    ∀ {ls : List Str} {pre : List (List Str)}, ls.map split = pre ++ bad :: post →
      (∀ r ∈ pre, (∃ x, NumberIn io i r x) ∧ ∃ y, NumberIn io j r y) → BadRecord io i j bad e →
      goldPrediction io (i : ℤ) (j : ℤ) ls = .error e := by
  intro ls
  induction ls with
  | nil => intro pre h _ _; simp at h
  | cons l ls ih =>
    intro pre h hg hb
    cases pre with
    | nil =>
      simp only [List.map_cons, List.nil_append, List.cons.injEq] at h
      obtain ⟨h1, _⟩ := h
      cases hb with
      | firstMissing hl => simp only [goldPrediction, h1, pyGet_nat_err hl, error_bind]
      | firstNoNumber hw hp => simp only [goldPrediction, h1, pyGet_nat_iff.2 hw, ok_bind, pyFloat_none hp, error_bind]
      | secondMissing hx hl =>
        obtain ⟨w, hw, hp⟩ := hx
        simp only [goldPrediction, h1, pyGet_nat_iff.2 hw, ok_bind, pyFloat_ok.2 hp, pyGet_nat_err hl, error_bind]
      | secondNoNumber hx hv hq =>
        obtain ⟨w, hw, hp⟩ := hx
        simp only [goldPrediction, h1, pyGet_nat_iff.2 hw, ok_bind, pyFloat_ok.2 hp, pyGet_nat_iff.2 hv, pyFloat_none hq,
          error_bind]
    | cons r pre =>
      simp only [List.map_cons, List.cons_append, List.cons.injEq] at h
      obtain ⟨h1, h2⟩ := h
      obtain ⟨⟨x, w, hw, hp⟩, y, v, hv, hq⟩ := hg r (by simp)
      have := ih h2 (fun r' hr' => hg r' (by simp [hr'])) hb
      simp only [goldPrediction, h1, pyGet_nat_iff.2 hw, ok_bind, pyFloat_ok.2 hp, pyGet_nat_iff.2 hv, pyFloat_ok.2 hq, this,
        error_bind]

/-- **C132** `evaluate_similarities`: when all lines before it are fine, a line that lacks one of the two columns is an
`IndexError` and a column that is not a number a `ValueError`; the first column is looked at first, and what follows the
line, and the measures asked for, do not matter. -/
theorem C132_evaluate {L : Lib} {fs : Fs} {inFile a b content : Str} {i j : ℕ} {measures : List Str}
    {pre post : List (List Str)} {bad : List Str} {e : PyErr}
    (ha : pyInt a = .ok ((i + 1 : ℕ) : ℤ)) (hb : pyInt b = .ok ((j + 1 : ℕ) : ℤ)) (hr : fs.read inFile = .ok content)
    (hc : records content = pre ++ bad :: post)
    (hg : ∀ r ∈ pre, (∃ x, NumberIn L.io i r x) ∧ ∃ y, NumberIn L.io j r y) (hbad : BadRecord L.io i j bad e) :
    evaluateSim L fs inFile [a, b] measures = .error e := by
  rw [← split_strippedLines] at hc
  simp only [evaluateSim, twoColumns_ok ha hb, ok_bind, hr, goldPrediction_bad hc hg hbad, error_bind]

/-- **C132** Every input is one or the other: either all lines have their two numbers, or there is a first line that is
bad, in one of the four ways. So the two theorems C83_scores and C132_evaluate leave no input out. -/
theorem C132_evaluate_cases {io : NumIO} {i j : ℕ} (rs : List (List Str)) :
    ((∃ gold, List.Forall₂ (NumberIn io i) rs gold) ∧ ∃ pred, List.Forall₂ (NumberIn io j) rs pred) ∨
    ∃ pre bad post e, rs = pre ++ bad :: post ∧
      (∀ r ∈ pre, (∃ x, NumberIn io i r x) ∧ ∃ y, NumberIn io j r y) ∧ BadRecord io i j bad e := by
  induction rs with
  | nil => exact .inl ⟨⟨[], .nil⟩, [], .nil⟩
  | cons r rs ih =>
    have num : ∀ k : ℕ, (∃ x, NumberIn io k r x) ∨ r.length ≤ k ∨ ∃ w, r[k]? = some w ∧ io.parse w = none := by
      intro k
      by_cases hk : r.length ≤ k
      · exact .inr (.inl hk)
      · have hw : r[k]? = some r[k] := List.getElem?_eq_getElem (by omega)
        cases hp : io.parse r[k] with
        | none => exact .inr (.inr ⟨_, hw, hp⟩)
        | some x => exact .inl ⟨x, _, hw, hp⟩
    rcases num i with ⟨x, hx⟩ | h | ⟨w, h, hp⟩
    · rcases num j with ⟨y, hy⟩ | h | ⟨w, h, hp⟩
      · rcases ih with ⟨⟨gold, h1⟩, pred, h2⟩ | ⟨pre, bad, post, e, h1, h2, h3⟩
        · exact .inl ⟨⟨x :: gold, .cons hx h1⟩, y :: pred, .cons hy h2⟩
        · refine .inr ⟨r :: pre, bad, post, e, by rw [h1]; rfl, ?_, h3⟩
          intro q hq
          rcases List.mem_cons.1 hq with rfl | hq
          · exact ⟨⟨x, hx⟩, y, hy⟩
          · exact h2 q hq
      · exact .inr ⟨[], r, rs, _, rfl, by simp, .secondMissing hx h⟩
      · exact .inr ⟨[], r, rs, _, rfl, by simp, .secondNoNumber hx h hp⟩
    · exact .inr ⟨[], r, rs, _, rfl, by simp, .firstMissing h⟩
    · exact .inr ⟨[], r, rs, _, rfl, by simp, .firstNoNumber h hp⟩

/-! ### `compute_similarities` -/

theorem simText_bad {L : Lib} {i j : ℕ} {s : Space Str} {s2 : Option (Space Str)} {sim : Sim} {e : PyErr} {bad : Str}
    {post : List Str} (hbad : BadPair s s2 sim i j (split bad) e) : ∀ {pre : List Str},
      (∀ l ∈ pre, ∃ out, SimLine L s s2 sim i j l out) →
      simText L (i : ℤ) (j : ℤ) s s2 sim (pre ++ bad :: post) = .error e := by
  intro pre
  induction pre with
  | nil =>
    intro _
    generalize hws : split bad = ws at hbad
    cases hbad with
    | missing hl =>
      by_cases h1 : ws.length ≤ i
      · simp only [List.nil_append, simText, hws, pyGet_nat_err h1, error_bind]
      · have h2 : ws.length ≤ j := hl.resolve_left h1
        have hw : ws[i]? = some ws[i] := List.getElem?_eq_getElem (by omega)
        simp only [List.nil_append, simText, hws, pyGet_nat_iff.2 hw, ok_bind, pyGet_nat_err h2, error_bind]
    | undefined h1 h2 h3 =>
      simp only [List.nil_append, simText, hws, pyGet_nat_iff.2 h1, pyGet_nat_iff.2 h2, ok_bind, h3, error_bind]
  | cons l pre ih =>
    intro hg
    obtain ⟨out, w1, w2, x, h1, h2, h3, _⟩ := hg l (by simp)
    simp only [List.cons_append, simText, pyGet_nat_iff.2 h1, pyGet_nat_iff.2 h2, ok_bind, h3,
      ih (fun l' hl' => hg l' (by simp [hl'])), error_bind]

theorem simMeasure_fails {L : Lib} {fs : Fs} {inFile base outDir d m content : Str} {i j : ℕ} {s : Space Str}
    {s2 : Option (Space Str)} {sim : Sim} {e : PyErr} (hb : IsBase inFile base) (hn : IsFileName base) (hd : '/' ∉ d)
    (hk : (m, sim) ∈ measureTable) (hr : fs.read inFile = .ok content)
    (hf : simText L (i : ℤ) (j : ℤ) s s2 sim (strippedLines content) = .error e)
    (ho : OutDir fs (fs.resolve (outDir ++ ['/']))) (hfree : fs.resolve (simsFile outDir base d m) ∉ fs.dirs) :
    simMeasure L inFile (i : ℤ) (j : ℤ) outDir (cs!"SIMS." ++ base ++ ['.'] ++ d) s s2 m fs = .error e := by
  have hns := simsName_noslash hb.1 hd hk
  have hq := simsFile_eq outDir base d m
  have hres := simsFile_resolve fs (outDir := outDir) hb.1 hd hk
  generalize hnm : cs!"SIMS." ++ base ++ ['.'] ++ d ++ ['.'] ++ m = nm at hns hq hres
  have hne : nm ≠ [] := by rw [← hnm]; simp
  have hnd : nm ≠ ['.'] := by rw [← hnm]; simp
  have hlen : base.length < nm.length := by rw [← hnm]; simp; omega
  have hout : outDir ++ ['/'] ++ (cs!"SIMS." ++ base ++ ['.'] ++ d) ++ ['.'] ++ m = outDir ++ '/' :: nm := by
    rw [← hnm]; simp
  rw [hq] at hfree hres
  obtain ⟨fs1, g1, g2, g3, g4, g5, g6⟩ := ho.createParent hns hne hnd
  have r1 : ∀ p, fs1.resolve p = fs.resolve p := Fs.resolve_cwd g3
  have hin : fs.resolve inFile ≠ fs.resolve (outDir ++ '/' :: nm) := resolve_longer fs hb hn hns hlen hnd
  have hdir : fs.resolve (outDir ++ '/' :: nm) ∉ fs1.dirs := by
    intro hm
    rcases g6 _ hm with h | h
    · exact hfree h
    · have := h.length_le
      rw [hres] at this
      simp at this
  obtain ⟨fs2, w1, _⟩ := OutDir.write (fs := fs1) (o := outDir) (nm := nm) (c := []) (by rw [r1]; exact g2) hns hne hnd
    (by rw [r1]; exact hdir) (by rw [r1]; exact g5)
  obtain ⟨a1, _, _, a4⟩ := Fs.write_ok w1
  have hrd1 : fs1.read inFile = .ok content := by rw [← hr]; exact read_congr g3 (by rw [g4])
  have hrd2 : fs2.read inFile = .ok content := by
    rw [← hrd1]
    refine read_congr a1 ?_
    rw [a4, if_neg (by rw [r1, r1]; exact hin)]
  simp only [simMeasure, simOf_eq.2 hk, hout, g1, ok_bind, hrd1, w1, hrd2, hf, error_bind]

/-- **C132** `compute_similarities`: a line that lacks one of the two columns is an `IndexError`, a pair of words whose
similarity is not defined is the error of the similarity (`KeyError` for an unknown word); the first bad line, for the first
known measure, decides. -/
theorem C132_similarities {L : Lib} {fs : Fs} {inFile base outDir d a b content m : Str} {files : List Str} {i j : ℕ}
    {s : Space Str} {s2 : Option (Space Str)} {us ms : List Str} {sim : Sim} {pre post : List Str} {bad : Str} {e : PyErr}
    (hb : IsBase inFile base) (hn : IsFileName base)
    (ha : pyInt a = .ok ((i + 1 : ℕ) : ℤ)) (hb' : pyInt b = .ok ((j + 1 : ℕ) : ℤ)) (hnm : SpacesName files d)
    (hs : SpacesFrom L fs files s s2) (hr : fs.read inFile = .ok content)
    (hu : ∀ u ∈ us, ∀ sim, (u, sim) ∉ measureTable) (hk : (m, sim) ∈ measureTable)
    (ho : OutDir fs (fs.resolve (outDir ++ ['/']))) (hfree : fs.resolve (simsFile outDir base d m) ∉ fs.dirs)
    (hc : textLines content = pre ++ bad :: post) (hg : ∀ l ∈ pre, ∃ out, SimLine L s s2 sim i j l out)
    (hbad : BadPair s s2 sim i j (split bad) e) :
    computeSim L inFile [a, b] outDir (us ++ m :: ms) files fs = .error e := by
  have hfiles : ∃ f gs, files = f :: gs := by cases hs <;> exact ⟨_, _, rfl⟩
  obtain ⟨f, gs, rfl⟩ := hfiles
  rw [computeSim_loop hb ha hb' hnm hs]
  have hd := (spacesDescr_eq hnm).2
  have hx : simText L (i : ℤ) (j : ℤ) s s2 sim (strippedLines content) = .error e := by
    have : strippedLines content = textLines content := rfl
    rw [this, hc]
    exact simText_bad hbad hg
  generalize 0 = k
  induction us generalizing k with
  | nil => simp only [List.nil_append, forFs, simMeasure_fails hb hn hd hk hr hx ho hfree, error_bind]
  | cons u us ih =>
    simp only [List.cons_append, forFs, simMeasure, simOf_none.2 (hu u (by simp)), ok_bind]
    exact ih (fun u' hu' => hu u' (by simp [hu'])) _

/-! ### `compute_neighbours` -/

/-- **C132** `compute_neighbours`: the first word whose neighbours are not defined decides (`KeyError` when it is unknown). -/
theorem C132_neighbours {L : Lib} {fs : Fs} {inFile base outDir d m content : Str} {n : ℤ} {files : List Str} {s : Space Str}
    {s2 : Option (Space Str)} {sim : Sim} {pre post : List Str} {bad : Str} {e : PyErr}
    (hb : IsBase inFile base) (hnm : SpacesName files d)
    (hs : SpacesFrom L fs files s s2) (hk : (m, sim) ∈ measureTable) (hr : fs.read inFile = .ok content)
    (hc : textLines content = pre ++ bad :: post) (hg : ∀ w ∈ pre, ∃ ns, s.getNeighbours w n sim s2 = .ok ns)
    (hbad : s.getNeighbours bad n sim s2 = .error e)
    (ho : OutDir fs (fs.resolve (outDir ++ ['/'])))
    (hfree : fs.resolve (neighboursFile outDir base d m) ∉ fs.dirs) :
    computeNeighbours L inFile n outDir m files fs = .error e := by
  rw [computeNeighbours_eq hb hnm hs hk]
  have hns := neighName_noslash hb.1 (spacesDescr_eq hnm).2 hk
  have hq := neighboursFile_eq outDir base d m
  generalize hnm' : cs!"NEIGHBOURS." ++ base ++ ['.'] ++ d ++ ['.'] ++ m = nm at hns hq
  have hne : nm ≠ [] := by rw [← hnm']; simp
  have hnd : nm ≠ ['.'] := by rw [← hnm']; simp
  rw [hq] at hfree ⊢
  have hres := resolve_in fs outDir hns hne hnd
  obtain ⟨fs1, g1, g2, g3, g4, g5, g6⟩ := ho.createParent hns hne hnd
  have r1 : ∀ p, fs1.resolve p = fs.resolve p := Fs.resolve_cwd g3
  have hdir : fs.resolve (outDir ++ '/' :: nm) ∉ fs1.dirs := by
    intro hm
    rcases g6 _ hm with h | h
    · exact hfree h
    · have := h.length_le
      rw [hres] at this
      simp at this
  obtain ⟨fs2, w1, w2⟩ := OutDir.write (fs := fs1) (o := outDir) (nm := nm) (c := []) (by rw [r1]; exact g2) hns hne hnd
    (by rw [r1]; exact hdir) (by rw [r1]; exact g5)
  have htx : neighboursText L s n sim s2 (textLines content) = .error e := by
    rw [hc]
    clear hc
    induction pre with
    | nil => simp only [List.nil_append, neighboursText, hbad, error_bind]
    | cons w ws ih =>
      obtain ⟨ns, h1⟩ := hg w (by simp)
      simp only [List.cons_append, neighboursText, h1, ok_bind, ih (fun v hv => hg v (by simp [hv])), error_bind]
  have hrd : fs1.read inFile = .ok content := by rw [← hr]; exact read_congr g3 (by rw [g4])
  simp only [g1, ok_bind, hrd, w1, htx, error_bind]

/-! ### Numbers on the command line -/

theorem floatOpt_bad {io : NumIO} {s : Str} (h : io.parse s = none) : floatOpt io (some s) = .error .valueError := by
  simp only [floatOpt, pyFloat_none h, error_bind]

theorem floatList_bad {io : NumIO} {l : List Str} (h : ∃ s ∈ l, io.parse s = none) : floatList io l = .error .valueError := by
  induction l with
  | nil => obtain ⟨s, hs, _⟩ := h; cases hs
  | cons t ts ih =>
    cases ht : io.parse t with
    | none => simp only [floatList, pyFloat_none ht, error_bind]
    | some x =>
      have : ∃ s ∈ ts, io.parse s = none := by
        obtain ⟨s, hs, hp⟩ := h
        rcases List.mem_cons.1 hs with rfl | hs
        · rw [ht] at hp; cases hp
        · exact ⟨s, hs, hp⟩
      simp only [floatList, pyFloat_ok.2 ht, ok_bind, ih this, error_bind]

/-- **C132** `train_composition`: a `--lambda`, or an element of `--lambda_range`, that is not a number is a `ValueError`,
whatever the model, the regression and the data. -/
theorem C132_train_numbers {L : Lib} {fs fs1 : Fs} {argv : List Str} {st : Settings}
    {model inFile outDir phraseFile : Str} {argFiles : List Str} {cv ic ex : Bool}
    (hst : cliTrain.parseArgs L.parseCfg fs argv = .ok st) (hlog : configLogging fs (st cs!"log_file").asStr = .ok fs1)
    (hcv : L.evalBool (st cs!"crossvalidation").strD = .ok (some cv))
    (hic : L.evalBool (st cs!"intercept").strD = .ok (some ic)) (hex : L.evalBool (st cs!"export_params").strD = .ok (some ex))
    (hm : st cs!"model" = .str model) (hi : st cs!"in_file" = .str inFile) (ho : st cs!"out_dir" = .str outDir)
    (ha : st cs!"arg_space" = .list argFiles) (hp : st cs!"phrase_space" = .str phraseFile)
    (hbad : (∃ s, st cs!"param" = .str s ∧ L.io.parse s = none) ∨
      ∃ l, st cs!"param_range" = .list l ∧ ∃ s ∈ l, L.io.parse s = none) :
    mainTrain L fs argv = .error (.raised .valueError) := by
  have e : paramsOf L.io (st cs!"param").asStr (st cs!"param_range").asList = .error .valueError := by
    rcases hbad with ⟨s, h1, h2⟩ | ⟨l, h1, h2⟩
    · simp only [h1, asStr_str, paramsOf, floatOpt_bad h2, error_bind]
    · simp only [h1, asList_list]
      unfold paramsOf
      cases hq : (st cs!"param").asStr with
      | none => simp only [floatOpt, ok_bind, floatList_bad h2, error_bind]
      | some t =>
        cases ht : L.io.parse t with
        | none => simp only [floatOpt_bad ht, error_bind]
        | some x => simp only [floatOpt, pyFloat_ok.2 ht, ok_bind, pure_eq_ok, floatList_bad h2, error_bind]
  simp only [mainTrain, hst, main_ok_bind, hlog, lift_of_ok, hi, ho, hm, ha, hp, asStr_str, asList_list, require_some, hcv,
    hic, hex, requireBool, e, lift_of_error, main_error_bind]

/-- **C132** `apply_composition`: an `--alpha`, `--beta` or `--lambda` that is not a number is a `ValueError`, also when the
model does not use it. -/
theorem C132_apply_numbers {L : Lib} {fs fs1 : Fs} {argv : List Str} {st : Settings} {inFile outDir : Str} {argFiles : List Str}
    (hst : cliApply.parseArgs L.parseCfg fs argv = .ok st) (hlog : configLogging fs (st cs!"log_file").asStr = .ok fs1)
    (hi : st cs!"in_file" = .str inFile) (ho : st cs!"out_dir" = .str outDir)
    (hx : requireXor (st cs!"model").asStr (st cs!"trained_model").asStr = .ok ())
    (ha : st cs!"arg_space" = .list argFiles)
    (hbad : ∃ key ∈ [cs!"alpha", cs!"beta", cs!"lambda_"], ∃ s, st key = .str s ∧ L.io.parse s = none) :
    mainApply L fs argv = .error (.raised .valueError) := by
  have key : ∀ v : OptVal, floatOpt L.io v.asStr = .error .valueError ∨ ∃ x, floatOpt L.io v.asStr = .ok x := by
    intro v
    cases v with
    | none => exact .inr ⟨_, rfl⟩
    | list l => exact .inr ⟨_, rfl⟩
    | str s =>
      cases hp : L.io.parse s with
      | none => exact .inl (floatOpt_bad hp)
      | some x => exact .inr ⟨some x, by simp only [asStr_str, floatOpt, pyFloat_ok.2 hp, ok_bind, pure_eq_ok]⟩
  have bad : ∀ k s, st k = .str s → L.io.parse s = none → floatOpt L.io (st k).asStr = .error .valueError := by
    intro k s h1 h2
    rw [h1]; exact floatOpt_bad h2
  simp only [mainApply, hst, main_ok_bind, hlog, lift_of_ok, hi, ho, ha, asStr_str, asList_list, require_some, hx]
  obtain ⟨k, hk, s, h1, h2⟩ := hbad
  have hb := bad k s h1 h2
  rcases key (st cs!"alpha") with h | ⟨x, h⟩
  · simp only [h, lift_of_error, main_error_bind]
  rcases key (st cs!"beta") with h' | ⟨x', h'⟩
  · simp only [h, h', lift_of_error, lift_of_ok, main_ok_bind, main_error_bind]
  rcases key (st cs!"lambda_") with h'' | ⟨x'', h''⟩
  · simp only [h, h', h'', lift_of_error, lift_of_ok, main_ok_bind, main_error_bind]
  simp only [List.mem_cons, List.not_mem_nil, or_false] at hk
  rcases hk with rfl | rfl | rfl
  · rw [h] at hb; cases hb
  · rw [h'] at hb; cases hb
  · rw [h''] at hb; cases hb

/-! ### Whole numbers -/

/-- `ds` is a decimal numeral for `k`. -/
def IsNumeral (ds : Str) (k : ℕ) : Prop :=
  ds ≠ [] ∧ (∀ c ∈ ds, '0' ≤ c ∧ c ≤ '9') ∧ k = Nat.ofDigits 10 (ds.reverse.map (fun c => c.toNat - '0'.toNat))

/-- `s` is, up to surrounding white space, a decimal numeral with an optional sign, and `n` is its value. -/
def IsWhole (s : Str) (n : ℤ) : Prop :=
  (∃ k : ℕ, IsNumeral (strip s) k ∧ n = k) ∨ (∃ ds, ∃ k : ℕ, strip s = '+' :: ds ∧ IsNumeral ds k ∧ n = k) ∨
  ∃ ds, ∃ k : ℕ, strip s = '-' :: ds ∧ IsNumeral ds k ∧ n = -k

theorem digitsVal_eq (ds : Str) : digitsVal ds = Nat.ofDigits 10 (ds.reverse.map (fun c => c.toNat - '0'.toNat)) := by
  unfold digitsVal
  induction ds using List.reverseRecOn with
  | nil => rfl
  | append_singleton ds c ih =>
    rw [List.foldl_append, ih, List.reverse_append, List.reverse_singleton, List.singleton_append, List.map_cons,
      Nat.ofDigits_cons]
    simp only [List.foldl_cons, List.foldl_nil, Nat.cast_id]
    have : '0'.toNat = 48 := rfl
    rw [this, Nat.add_comm]

theorem isDigits_iff {ds : Str} : isDigits ds = true ↔ ds ≠ [] ∧ ∀ c ∈ ds, '0' ≤ c ∧ c ≤ '9' := by
  have h : ∀ c : Char, (48 ≤ c.toNat ∧ c.toNat ≤ 57) ↔ ('0' ≤ c ∧ c ≤ '9') := by
    intro c
    exact Iff.rfl
  unfold isDigits
  simp only [Bool.and_eq_true, decide_eq_true_eq, List.all_eq_true, h]

theorem numeral_iff {ds : Str} {k : ℕ} : IsNumeral ds k ↔ isDigits ds = true ∧ k = digitsVal ds := by
  unfold IsNumeral
  rw [isDigits_iff, digitsVal_eq, and_assoc]

/-- **C132** The whole numbers of the options and column lists: a string is accepted exactly when it is a decimal numeral
with an optional sign, surrounded by white space or not, and it stands for its value; anything else is a `ValueError`. -/
theorem C132_whole_numbers {s : Str} :
    (∀ n, pyInt s = .ok n ↔ IsWhole s n) ∧ ((∀ n, ¬ IsWhole s n) → pyInt s = .error .valueError) := by
  have key : ∀ n, pyInt s = .ok n ↔ IsWhole s n := by
    intro n
    unfold IsWhole pyInt
    simp only [numeral_iff]
    have hsign : ∀ (c : Char) (ds : Str), c = '-' ∨ c = '+' → isDigits (c :: ds) = false := by
      intro c ds hc
      rcases hc with rfl | rfl <;> simp [isDigits]
    have pick : ∀ (ds : Str) (v : ℤ), ((if isDigits ds = true then .ok v else .error .valueError : Py ℤ) = .ok n) ↔
        isDigits ds = true ∧ n = v := by
      intro ds v
      by_cases hd : isDigits ds = true
      · rw [if_pos hd]
        exact ⟨fun h => ⟨hd, (ok_inj h).symm⟩, fun h => by rw [h.2]⟩
      · rw [if_neg hd]
        exact ⟨fun h => (by cases h), fun h => absurd h.1 hd⟩
    split
    · rename_i ds hs
      rw [pick]
      constructor
      · rintro ⟨h1, h2⟩; exact .inr (.inr ⟨ds, _, hs, ⟨h1, rfl⟩, h2⟩)
      · rintro (⟨k, ⟨h1, _⟩, _⟩ | ⟨ds', k, h1, _⟩ | ⟨ds', k, h1, ⟨h2, h3⟩, h4⟩)
        · rw [hs, hsign _ _ (.inl rfl)] at h1; cases h1
        · rw [hs] at h1; cases h1
        · rw [hs] at h1; cases h1; rw [h3] at h4; exact ⟨h2, h4⟩
    · rename_i ds hs
      rw [pick]
      constructor
      · rintro ⟨h1, h2⟩; exact .inr (.inl ⟨ds, _, hs, ⟨h1, rfl⟩, h2⟩)
      · rintro (⟨k, ⟨h1, _⟩, _⟩ | ⟨ds', k, h1, ⟨h2, h3⟩, h4⟩ | ⟨ds', k, h1, _⟩)
        · rw [hs, hsign _ _ (.inr rfl)] at h1; cases h1
        · rw [hs] at h1; cases h1; rw [h3] at h4; exact ⟨h2, h4⟩
        · rw [hs] at h1; cases h1
    · rename_i ds h1 h2
      rw [pick]
      constructor
      · rintro ⟨h3, h4⟩; exact .inl ⟨_, ⟨h3, rfl⟩, h4⟩
      · rintro (⟨k, ⟨h3, h4⟩, h5⟩ | ⟨ds', k, h3, _⟩ | ⟨ds', k, h3, _⟩)
        · rw [h4] at h5; exact ⟨h3, h5⟩
        · exact absurd h3 (h2 ds')
        · exact absurd h3 (h1 ds')
  refine ⟨key, fun h => ?_⟩
  cases hp : pyInt s with
  | ok n => exact absurd ((key n).1 hp) (h n)
  | error e =>
    unfold pyInt at hp
    split at hp <;> (split at hp <;> first | (injection hp with hp; rw [hp]) | cases hp)

/-- **C132** `compute_neighbours`: a `--no_neighbours` that is not a whole number is a `ValueError`. -/
theorem C132_count {L : Lib} {fs fs1 : Fs} {argv : List Str} {st : Settings}
    (hst : cliNeigh.parseArgs L.parseCfg fs argv = .ok st) (hlog : configLogging fs (st cs!"log_file").asStr = .ok fs1)
    (hbad : ∀ n, ¬ IsWhole (st cs!"no_neighbours").strD n) :
    mainNeigh L fs argv = .error (.raised .valueError) := by
  simp only [mainNeigh, hst, main_ok_bind, hlog, lift_of_ok, C132_whole_numbers.2 hbad, lift_of_error, main_error_bind]

end
end Dissect
