import Verif.Examples.Total
import Verif.Props.TwoStage

/-! # C149 and C150 applied to concrete runs -/

namespace Dissect
noncomputable section
namespace Examples

/-- A run with one combination of `plog` or nothing and `row` or nothing. -/
theorem simple_documented {w n : Option Str} (hw : w = none ∨ w = some cs!"plog") (hn : n = none ∨ n = some cs!"row") :
    ∀ c, choices [w] [none] [none] [n] c → c.Documented := by
  rintro ⟨w', t, r, n'⟩ ⟨h1, h2, h3, h4⟩
  simp only [List.mem_singleton] at h1 h2 h3 h4
  subst h1 h2 h3 h4
  refine ⟨?_, Or.inl (Or.inl rfl), Or.inl (Or.inl rfl), ?_⟩
  · rcases hw with rfl | rfl
    · exact Or.inl (Or.inl rfl)
    · exact Or.inr ⟨_, by simp, .named (sc := .plog) (by decide)⟩
  · rcases hn with rfl | rfl
    · exact Or.inl (Or.inl rfl)
    · exact Or.inr ⟨_, by simp, .named (sc := .rowNorm .length) (by decide)⟩

theorem simple_run {L : Lib} (henv : L.env.Ideal) {w n : Option Str} (hw : w = none ∨ w = some cs!"plog")
    (hn : n = none ∨ n = some cs!"row") {fs : Fs} {pre base outDir : Str} (hb : IsBase pre base) {raw : Space Str}
    (hin : InputSpace L fs pre false cs!"pkl" raw) (hp : Plain raw) (h0 : NonNegative raw.mat.val)
    (hout : OutDir fs (fs.resolve (outDir ++ ['/'])))
    (hfree : fs.resolve (coreFile outDir base ⟨w, none, none, n⟩ ++ cs!".pkl") ∉ fs.dirs) :
    ∃ fs', buildSpaces L fs pre cs!"pkl" outDir none [w] [none] [none] [n] false = .ok fs' ∧
      ∀ c, choices [w] [none] [none] [n] c →
      ∃ res, c.Result L.env raw res ∧ fs'.read (coreFile outDir base c ++ cs!".pkl") = .ok (L.dump (.space res)) := by
  refine C134_core_succeeds henv hb (simple_documented hw hn) (by simp) (by simp) (by simp) hin hp h0 ?_ hout ?_
  · intro i j k c _ _ h3 a b s _ _ _
    have hr : c.r = none := by
      have := List.mem_of_getElem? h3
      rwa [List.mem_singleton] at this
    refine ⟨fun m hm => ?_, fun m hm => ?_⟩
    · rw [hr, rskip (Or.inl rfl)] at hm; cases hm
    · rw [hr, rskip (Or.inl rfl)] at hm; cases hm
  · rintro ⟨w', t, r, n'⟩ ⟨h1, h2, h3, h4⟩
    simp only [List.mem_singleton] at h1 h2 h3 h4
    subst h1 h2 h3 h4
    exact hfree

/-- The output of the first run, carried to another machine. -/
def carried (content : Str) : Fs := ⟨[cs!"home"], [[], [cs!"home"], [cs!"out"], [cs!"out", cs!"x"]],
  (Dict.empty).set [cs!"out", cs!"x", cs!"CORE_SS.in.plog.pkl"] content⟩

theorem carried_keys (t : Str) : (carried t).files.keys = [[cs!"out", cs!"x", cs!"CORE_SS.in.plog.pkl"]] := rfl

theorem carried_ok (t : Str) : (carried t).Ok := by
  refine ⟨by simp [carried], by simp [carried], ?_, ?_, ?_⟩
  · show ∀ d ∈ [[], [cs!"home"], [cs!"out"], [cs!"out", cs!"x"]], d.dropLast ∈ [[], [cs!"home"], [cs!"out"], [cs!"out", cs!"x"]]
    decide
  · rw [carried_keys]
    show ∀ f ∈ [[cs!"out", cs!"x", cs!"CORE_SS.in.plog.pkl"]], f.dropLast ∈ [[], [cs!"home"], [cs!"out"], [cs!"out", cs!"x"]]
    decide
  · rw [carried_keys]
    show ∀ f ∈ [[cs!"out", cs!"x", cs!"CORE_SS.in.plog.pkl"]], f ∉ [[], [cs!"home"], [cs!"out"], [cs!"out", cs!"x"]]
    decide

/-- C149: `plog` in one run, `row` in another, on another machine; and both in one run. -/
example : ∃ (L : Lib) (fs1 fs3 fsA : Fs) (t : Str),
    buildSpaces L demoFs cs!"/data/in" cs!"pkl" cs!"/out/x" none [some cs!"plog"] [none] [none] [none] false = .ok fs1 ∧
    buildSpaces L (carried t) cs!"/out/x/CORE_SS.in.plog" cs!"pkl" cs!"/out/y" none [none] [none] [none] [some cs!"row"] false = .ok fs3 ∧
    buildSpaces L demoFs cs!"/data/in" cs!"pkl" cs!"/out/z" none [some cs!"plog"] [none] [none] [some cs!"row"] false = .ok fsA ∧
    fs1.read cs!"/out/x/CORE_SS.in.plog.pkl" = .ok t ∧
    fs3.read cs!"/out/y/CORE_SS.CORE_SS.in.plog.row.pkl" = fsA.read cs!"/out/z/CORE_SS.in.plog.row.pkl" := by
  obtain ⟨mid, e1, e2, e3⟩ := weighting_total idealEnv zoo_plain zoo_nonneg (t := cs!"plog") (sc := .plog) (by decide)
  set L := demoLib zoo (.space mid) with hL
  have hops : PyObj.space mid ≠ .space zoo := by
    intro h
    injection h with h
    have : mid.mat.val.get 1 2 = Real.log 5 := (plog_zoo e1).2.2
    rw [h] at this
    have h5 : zoo.mat.val.get 1 2 = 5 := by
      show (exMat .dense).val.get 1 2 = 5
      rw [exMat, Mat.of_get_lt (by decide) (by decide)]
      norm_num
    rw [h5] at this
    have := Real.log_le_sub_one_of_pos (x := 5) (by norm_num)
    linarith
  have hdumpmid : L.dump (.space mid) = cs!"M" := by
    simp only [hL, demoLib]
    rw [if_neg hops, if_true]
  obtain ⟨fs1, h1, k1⟩ := simple_run (L := L) idealEnv_ideal (Or.inr rfl) (Or.inl rfl) in_base
    (.pickle (in_pkl_any _)) zoo_plain zoo_nonneg demo_out (by rw [demoFs_dirs]; decide)
  obtain ⟨mid', m1, m2⟩ := k1 ⟨some cs!"plog", none, none, none⟩ ⟨by simp, by simp, by simp, by simp⟩
  have hmid : mid' = mid := by
    obtain ⟨a, b, d, e, ha, hb, hd, he, happ⟩ := m1
    obtain rfl := plog_only ha
    have hb' : SMeans none b := hb
    have hd' : RMeans none d := hd
    have he' : NMeans none e := he
    rw [sskip (Or.inl rfl)] at hb'
    rw [rskip (Or.inl rfl)] at hd'
    rw [nskip (Or.inl rfl)] at he'
    subst hb' hd' he'
    have happ' : zoo.apply idealEnv (.scaling .plog) = .ok mid' := by rw [← applyAll_single]; exact happ
    rw [e1] at happ'
    exact (ok_inj happ').symm
  subst hmid
  have hb2 : IsBase (coreFile cs!"/out/x" cs!"in" ⟨some cs!"plog", none, none, none⟩) cs!"CORE_SS.in.plog" :=
    ⟨by decide, Or.inr ⟨cs!"/out/x", rfl⟩⟩
  have hund : L.undump cs!"M" = some (.space mid') := by
    simp only [hL, demoLib]
    rw [if_neg (by decide), if_true]
  obtain ⟨fs3, h3, -⟩ := simple_run (L := L) idealEnv_ideal (fs := carried cs!"M") (outDir := cs!"/out/y") (w := none)
    (n := some cs!"row") (Or.inl rfl) (Or.inr rfl) hb2 (raw := mid') (.pickle ⟨cs!"M", rfl, hund⟩) e2 e3
    ⟨carried_ok _, by
      rw [carried_keys]
      show ∀ f ∈ [[cs!"out", cs!"x", cs!"CORE_SS.in.plog.pkl"]], ¬ f <+: [cs!"out", cs!"y"]
      decide⟩
    (by
      show [cs!"out", cs!"y", cs!"CORE_SS.CORE_SS.in.plog.row.pkl"] ∉ [[], [cs!"home"], [cs!"out"], [cs!"out", cs!"x"]]
      decide)
  obtain ⟨fsA, hA, -⟩ := simple_run (L := L) idealEnv_ideal (outDir := cs!"/out/z") (w := some cs!"plog") (n := some cs!"row")
    (Or.inr rfl) (Or.inr rfl) in_base (.pickle (in_pkl_any _)) zoo_plain zoo_nonneg
    ⟨demoFs_ok, by rw [demoFs_keys]; decide⟩ (by rw [demoFs_dirs]; decide)
  refine ⟨L, fs1, fs3, fsA, cs!"M", h1, h3, hA, by rw [← hdumpmid]; exact m2, ?_⟩
  refine C149_as_one_run (p := 1) (c := ⟨some cs!"plog", none, none, some cs!"row"⟩) (c1 := ⟨some cs!"plog", none, none, none⟩)
    (c2 := ⟨none, none, none, some cs!"row"⟩) in_base (simple_documented (Or.inr rfl) (Or.inl rfl))
    (simple_documented (Or.inl rfl) (Or.inr rfl)) (simple_documented (Or.inr rfl) (Or.inr rfl)) h1
    ⟨by simp, by simp, by simp, by simp⟩ ⟨by simp, by simp, by simp, by simp⟩ ?_ ?_ ?_ hb2 h3
    ⟨by simp, by simp, by simp, by simp⟩ (fun d _ h => by cases h) hA
  · intro q t t1 t2 a1 a2 a3
    have hn : NoneLike none := Or.inl rfl
    match q, a1, a2, a3 with
    | 0, a1, a2, a3 =>
      simp only [Choice.opts, List.getElem?_cons_zero, Option.some.injEq] at a1 a2 a3
      subst a1 a2 a3
      exact ⟨fun _ => ⟨rfl, hn⟩, fun h => absurd h (by decide)⟩
    | 1, a1, a2, a3 | 2, a1, a2, a3 | 3, a1, a2, a3 =>
      simp only [Choice.opts, List.getElem?_cons_zero, List.getElem?_cons_succ, Option.some.injEq] at a1 a2 a3
      subst a1 a2 a3
      exact ⟨fun h => absurd h (by decide), fun _ => ⟨hn, rfl⟩⟩
    | q + 4, a1, _, _ => simp [Choice.opts] at a1
  · intro o ho
    have : cs!"M" = L.dump o := by
      rw [← hdumpmid]
      have := m2.symm.trans ho
      exact ok_inj this
    have ho' : o = .space mid' := by
      simp only [hL, demoLib] at this
      by_cases h2 : o = .space zoo
      · rw [if_pos h2] at this; exact absurd this (by decide)
      · rw [if_neg h2] at this
        by_cases h4 : o = .space mid'
        · exact h4
        · rw [if_neg h4] at this; exact absurd this (by decide)
    rw [ho', hdumpmid, hund]
  · rw [show fs1.read (coreFile cs!"/out/x" cs!"in" ⟨some cs!"plog", none, none, none⟩ ++ cs!".pkl") = .ok cs!"M" by
      rw [← hdumpmid]; exact m2]
    rfl

/-- A run without operations that exports the input in the format `f`. -/
theorem export_run {L : Lib} {f : Str} {fs : Fs} {pre base o : Str} (hb : IsBase pre base)
    {raw : Space Str} (hin : InputSpace L fs pre false cs!"pkl" raw) (hwf : raw.WF)
    (hout : OutDir fs (fs.resolve (o ++ ['/'])))
    (hdir : ∀ e ∈ [cs!"pkl", cs!"rows", cs!"cols", cs!"dm", cs!"sm"],
      fs.resolve (o ++ '/' :: (cs!"CORE_SS." ++ base ++ '.' :: e)) ∉ fs.dirs)
    (hfmt : (f = cs!"dm" ∧ 0 < raw.mat.nc) ∨
      (f = cs!"sm" ∧ raw.id2row ≠ [] ∧ raw.id2col ≠ [] ∧ raw.mat.ty = .dense)) :
    ∃ fs', buildSpaces L fs pre cs!"pkl" o (some f) [none] [none] [none] [none] false = .ok fs' := by
  have hfile : spaceFile o [some (coreDescr pre), none, none, none, none] = o ++ '/' :: (cs!"CORE_SS." ++ base) := by
    have := choiceFile_eq (outDir := o) hb ⟨none, none, none, none⟩
    simpa [choiceFile, coreFile, dotted] using this
  have hns : '/' ∉ cs!"CORE_SS." ++ base := by simp [hb.1]
  have hone : cs!"CORE_SS." ++ base ≠ ['.'] := by simp
  have hon : ∀ e : Str, '/' ∉ e → '/' ∉ (cs!"CORE_SS." ++ base ++ '.' :: e) := by
    intro e he; simp [hb.1, he]
  obtain ⟨fs1, h1, h2, h3, h4, h5⟩ := hout.save (c := L.dump (.space raw)) (nm := cs!"CORE_SS." ++ base ++ cs!".pkl")
    (hon cs!"pkl" (by decide)) (by simp) (by simp) (hdir cs!"pkl" (by simp))
  have hres : fs1.resolve (o ++ ['/']) = fs.resolve (o ++ ['/']) := Fs.resolve_cwd h3 _
  have hnd : ∀ e ∈ [cs!"rows", cs!"cols", cs!"dm", cs!"sm"],
      fs1.resolve (o ++ '/' :: (cs!"CORE_SS." ++ base ++ '.' :: e)) ∉ fs1.dirs := by
    intro e he hm
    have hes : '/' ∉ e := by
      have : ∀ e ∈ [cs!"rows", cs!"cols", cs!"dm", cs!"sm"], '/' ∉ e := by decide
      exact this e he
    rw [Fs.resolve_cwd h3] at hm
    rcases h5 _ hm with hm | hm
    · exact hdir e (List.mem_cons_of_mem _ he) hm
    · rw [resolve_in fs o (hon e hes) (by simp) (by simp)] at hm
      have := hm.length_le
      simp at this
  obtain ⟨fs2, h6⟩ := C62_export_partial (io := L.io) h2.ok hwf (store := L.csr raw.mat) (pre := o ++ '/' :: (cs!"CORE_SS." ++ base))
    (by simp) (format := some f)
    (by
      intro g hg
      simp only [List.mem_cons, List.not_mem_nil, or_false] at hg
      rcases hg with rfl | rfl | rfl | rfl
      · have := hnd cs!"rows" (by decide); simpa [rowsFile] using this
      · have := hnd cs!"cols" (by decide); simpa [colsFile] using this
      · have := hnd cs!"dm" (by decide); simpa [dmFile] using this
      · have := hnd cs!"sm" (by decide); simpa [smFile] using this)
    (by
      have := dirname_in fs1 o hns (by simp) hone
      rw [this, hres]
      exact h2.free)
    (by
      rcases hfmt with ⟨rfl, h⟩ | ⟨rfl, h, h', h''⟩
      · exact Or.inr (Or.inl ⟨rfl, h⟩)
      · exact Or.inr (Or.inr ⟨rfl, h, h', fun hs => by rw [h''] at hs; cases hs⟩))
  refine ⟨fs2, ?_⟩
  unfold buildSpaces
  rw [readInput_ok.2 hin]
  simp only [forFs, applyWeighting, selLoop, applySelection, redLoop, applyReduction, normLoop, applyNormalization, ok_bind,
    printSpace, hfile]
  have h1' : fs.save (L.dump (.space raw)) (o ++ '/' :: (cs!"CORE_SS." ++ base) ++ cs!".pkl") = .ok fs1 := by
    rw [← h1]; simp
  rw [h1']
  simp only [ok_bind, exportOpt, h6]

theorem zoo_values : ∀ i j, i < zoo.mat.nr → j < zoo.mat.nc → zoo.mat.val.get i j ∈ {x : ℝ | ∃ k : ℤ, x = k / 1000000} := by
  intro i j hi hj
  show (exMat .dense).val.get i j ∈ _
  rw [exMat, Mat.of_get_lt (nr := 2) (nc := 3) hi hj]
  exact ⟨1000000 * (i + 2 * j), by push_cast; ring⟩

theorem zoo_words : (∀ w ∈ zoo.id2row, IsWord w) ∧ (∀ w ∈ zoo.id2col, IsWord w) := by
  have h1 : ∀ w ∈ [cs!"dog", cs!"cat"], w ≠ [] ∧ ∀ c ∈ w, isWs c = false := by decide
  have h2 : ∀ w ∈ [cs!"a", cs!"b", cs!"c"], w ≠ [] ∧ ∀ c ∈ w, isWs c = false := by decide
  exact ⟨h1, h2⟩

/-- `none` as the only option everywhere. -/
theorem none_documented : ∀ c, choices [none] [none] [none] [none] c → c.Documented :=
  simple_documented (Or.inl rfl) (Or.inl rfl)

theorem none_result {env : Env} {raw res : Space Str} (h : Choice.Result env raw ⟨none, none, none, none⟩ res) : res = raw := by
  obtain ⟨a, b, d, e, ha, hb, hd, he, happ⟩ := h
  have ha' : WMeans none a := ha
  have hb' : SMeans none b := hb
  have hd' : RMeans none d := hd
  have he' : NMeans none e := he
  rw [wskip (Or.inl rfl)] at ha'
  rw [sskip (Or.inl rfl)] at hb'
  rw [rskip (Or.inl rfl)] at hd'
  rw [nskip (Or.inl rfl)] at he'
  subst ha' hb' hd' he'
  exact (ok_inj happ).symm

/-- C150: the zoo, exported in the dense format, is read back with its words, columns and values. -/
example : ∃ fs' s', buildSpaces demo demoFs cs!"/data/in" cs!"pkl" cs!"/out/x" (some cs!"dm") [none] [none] [none] [none] false
      = .ok fs' ∧ InputSpace demo fs' cs!"/out/x/CORE_SS.in" false cs!"dm" s' ∧ s'.id2row = [cs!"dog", cs!"cat"] ∧
      s'.id2col = [cs!"a", cs!"b", cs!"c"] ∧ s'.mat.val = zoo.mat.val := by
  have hin : InputSpace demo demoFs cs!"/data/in" false cs!"pkl" zoo := .pickle (in_pkl_any _)
  obtain ⟨fs', h⟩ := export_run (f := cs!"dm") in_base hin zoo_wf demo_out
    (by rw [demoFs_dirs]; decide) (Or.inl ⟨rfl, by decide⟩)
  obtain ⟨raw, res, k1, k2, k3⟩ := C150_dm_partial (c := ⟨none, none, none, none⟩) decIO_laws in_base none_documented h
    ⟨by simp, by simp, by simp, by simp⟩
  have e := readInput_ok.2 k1
  rw [readInput_ok.2 hin] at e
  obtain rfl := ok_inj e
  obtain rfl := none_result k2
  obtain ⟨s', m1, m2, m3, _, m5⟩ := k3 zoo_wf zoo_words.1 zoo_words.2 (by decide) (by decide) zoo_values
    (fun h => absurd h (by decide))
  exact ⟨fs', s', h, m1, m2, m3, m5⟩

/-- C150: in the sparse format. -/
example : ∃ fs' s', buildSpaces demo demoFs cs!"/data/in" cs!"pkl" cs!"/out/x" (some cs!"sm") [none] [none] [none] [none] false
      = .ok fs' ∧ InputSpace demo fs' cs!"/out/x/CORE_SS.in" false cs!"sm" s' ∧ s'.id2row = [cs!"dog", cs!"cat"] ∧
      s'.id2col = [cs!"a", cs!"b", cs!"c"] ∧ |s'.mat.val.get 1 2 - 5| ≤ 1 / 1000000 := by
  have hin : InputSpace demo demoFs cs!"/data/in" false cs!"pkl" zoo := .pickle (in_pkl_any _)
  obtain ⟨fs', h⟩ := export_run (f := cs!"sm") in_base hin zoo_wf demo_out
    (by rw [demoFs_dirs]; decide) (Or.inr ⟨rfl, by decide, by decide, rfl⟩)
  obtain ⟨raw, res, k1, k2, _, k3⟩ := C150_sm_partial (c := ⟨none, none, none, none⟩) decIO_laws (show (0 : ℝ) ∈ {x : ℝ | ∃ k : ℤ, x = k / 1000000} from ⟨0, by simp⟩) in_base
    none_documented h ⟨by simp, by simp, by simp, by simp⟩
  have e := readInput_ok.2 k1
  rw [readInput_ok.2 hin] at e
  obtain rfl := ok_inj e
  obtain rfl := none_result k2
  obtain ⟨s', m1, m2, m3, _, _, _, m5⟩ := k3 zoo_wf zoo_words.1 zoo_words.2 (by decide) zoo_values (fun h => by cases h)
  refine ⟨fs', s', h, m1, m2, m3, ?_⟩
  have := m5 1 2 (by decide) (by decide)
  rwa [show zoo.mat.val.get 1 2 = 5 by
    show (exMat .dense).val.get 1 2 = 5
    rw [exMat, Mat.of_get_lt (by decide) (by decide)]
    norm_num] at this

/-- The zoo without column labels. -/
def zooBare : Space Str := { zoo with id2col := [], col2id := Dict.empty }

theorem zooBare_new : Space.new (exMat .dense) [cs!"dog", cs!"cat"] [] none none [] none = .ok zooBare := rfl

theorem zooBare_wf : zooBare.WF := (C01_result _ _ _ _ _ _ _ _ zooBare_new).1

/-- A directory with an input and the column labels that an earlier run left. -/
def staleFs : Fs := ⟨[cs!"home"], [[], [cs!"home"], [cs!"data"], [cs!"out"]],
  ((Dict.empty).set [cs!"data", cs!"in.pkl"] cs!"S").set [cs!"out", cs!"CORE_SS.in.cols"] cs!"x\ny\nz\n"⟩

theorem staleFs_keys : staleFs.files.keys = [[cs!"data", cs!"in.pkl"], [cs!"out", cs!"CORE_SS.in.cols"]] := rfl

theorem staleFs_out : OutDir staleFs (staleFs.resolve (cs!"/out" ++ ['/'])) := by
  refine ⟨⟨by simp [staleFs], by simp [staleFs], ?_, ?_, ?_⟩, ?_⟩
  · show ∀ d ∈ [[], [cs!"home"], [cs!"data"], [cs!"out"]], d.dropLast ∈ [[], [cs!"home"], [cs!"data"], [cs!"out"]]
    decide
  · rw [staleFs_keys]
    show ∀ f ∈ [[cs!"data", cs!"in.pkl"], [cs!"out", cs!"CORE_SS.in.cols"]], f.dropLast ∈ [[], [cs!"home"], [cs!"data"], [cs!"out"]]
    decide
  · rw [staleFs_keys]
    show ∀ f ∈ [[cs!"data", cs!"in.pkl"], [cs!"out", cs!"CORE_SS.in.cols"]], f ∉ [[], [cs!"home"], [cs!"data"], [cs!"out"]]
    decide
  · rw [staleFs_keys]
    show ∀ f ∈ [[cs!"data", cs!"in.pkl"], [cs!"out", cs!"CORE_SS.in.cols"]], ¬ f <+: [cs!"out"]
    decide

/-- C150 fails: the labels of the earlier run become the labels of the space. -/
example : ∃ fs', buildSpaces (demoLib zooBare sumModel) staleFs cs!"/data/in" cs!"pkl" cs!"/out" (some cs!"dm")
      [none] [none] [none] [none] false = .ok fs' ∧
    ∀ s', InputSpace (demoLib zooBare sumModel) fs' cs!"/out/CORE_SS.in" false cs!"dm" s' → s'.id2col ≠ [] := by
  have hin : InputSpace (demoLib zooBare sumModel) staleFs cs!"/data/in" false cs!"pkl" zooBare :=
    .pickle ⟨cs!"S", rfl, by simp [demoLib]⟩
  obtain ⟨fs', h⟩ := export_run (f := cs!"dm") in_base hin zooBare_wf staleFs_out
    (by
      rw [show staleFs.dirs = [[], [cs!"home"], [cs!"data"], [cs!"out"]] from rfl]
      decide) (Or.inl ⟨rfl, by decide⟩)
  obtain ⟨raw, res, k1, k2, k3⟩ := C150_stale_labels_refuted (c := ⟨none, none, none, none⟩) in_base none_documented h
    ⟨by simp, by simp, by simp, by simp⟩ (txt := cs!"x\ny\nz\n") rfl
  have e := readInput_ok.2 k1
  rw [readInput_ok.2 hin] at e
  obtain rfl := ok_inj e
  obtain rfl := none_result k2
  exact ⟨fs', h, fun s' hs => k3 rfl s' hs⟩

end Examples
end
end Dissect
