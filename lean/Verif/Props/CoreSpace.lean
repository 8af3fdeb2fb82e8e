import Verif.Lemmas.CoreNames
import Verif.Lemmas.FsOut
import Verif.Props.SpaceApply
import Verif.Lemmas.Input

/-! # C67: `build_core_space.py` -/

namespace Dissect
noncomputable section

theorem Choice.Same.file {c d : Choice} (h : c.Same d) (outDir base : Str) : coreFile outDir base c = coreFile outDir base d := by
  have key : ∀ {t u : Option Str}, SameOpt t u → dotted t = dotted u := by
    intro t u h
    rcases h with rfl | ⟨h1, h2⟩
    · rfl
    · rw [dotted_norm, dotted_norm, norm_noneLike h1, norm_noneLike h2]
  unfold coreFile
  rw [key h.1, key h.2.1, key h.2.2.1, key h.2.2.2]

/-- The state of the output files of one choice: what saving and exporting `res` left there. -/
structure Holds (L : Lib) (fs fs' : Fs) (outFormat : Option Str) (file : Str) (res : Space Str) : Prop where
  pickle : fs'.read (file ++ cs!".pkl") = .ok (L.dump (.space res))
  exported : ∀ f, outFormat = some f → ∃ fs0 fs1, fs0.cwd = fs.cwd ∧
    res.export L.io fs0 (L.csr res.mat) file (some f) = .ok fs1 ∧
    ∀ e ∈ outExts, fs'.read (file ++ ['.'] ++ e) = fs1.read (file ++ ['.'] ++ e)

theorem holds_of_job {L : Lib} {fs fs' fs0 fs1 : Fs} {fmt : Option Str} {file : Str} {res : Space Str}
    (hp : printJob L fmt (file, res) fs0 = .ok fs1) (h0 : fs0.cwd = fs.cwd) (hc : fs'.cwd = fs.cwd)
    (hg : ∀ e, IsExt e → fs'.files.get? (fs.resolve (file ++ ['.'] ++ e)) = fs1.files.get? (fs.resolve (file ++ ['.'] ++ e))) :
    Holds L fs fs' fmt file res := by
  have h1 : fs1.cwd = fs.cwd := (printJob_frame hp).1.trans h0
  have hread : ∀ e, IsExt e → fs'.read (file ++ ['.'] ++ e) = fs1.read (file ++ ['.'] ++ e) := by
    intro e he
    have := hg e he
    exact read_congr (hc.trans h1.symm) (by rw [Fs.resolve_cwd h1]; exact this)
  constructor
  · rw [pkl_eq, hread _ isExt_pkl, ← pkl_eq]
    exact printJob_pkl hp
  · intro f hf
    subst hf
    simp only [printJob, bind_eq_ok] at hp
    obtain ⟨fs2, p1, p2⟩ := hp
    exact ⟨fs2, fs1, (save_ok p1).1.trans h0, p2, fun e he => hread e (isExt_of_mem he)⟩

/-- **C67** When `build_spaces` returns and every option is "no operation" or a documented operation, there is for every
combination of the option lists the documented file with exactly the result of its operations, applied in the order
weighting, selection, reduction, normalization to the input space; an additional output format is written for the same
space. -/
theorem C67_every_combination {L : Lib} {fs fs' : Fs} {pre base fmt outDir : Str} {outFormat : Option Str}
    {ws ss rs ns : List (Option Str)} {gz : Bool} (hb : IsBase pre base)
    (hdoc : ∀ c, choices ws ss rs ns c → c.Documented)
    (h : buildSpaces L fs pre fmt outDir outFormat ws ss rs ns gz = .ok fs') :
    ∃ input, InputSpace L fs pre gz fmt input ∧ ∀ c, choices ws ss rs ns c →
      ∃ res, c.Result L.env input res ∧ Holds L fs fs' outFormat (coreFile outDir base c) res := by
  obtain ⟨input, h1, js, hcov, hrun⟩ := buildSpaces_jobs h
  refine ⟨input, readInput_ok.1 h1, fun c hc => ?_⟩
  obtain ⟨a1, _, a3⟩ := runJobs_spec js hrun
  obtain ⟨j, hj, hf, hr⟩ := hcov.2 c hc
  obtain ⟨j', hj', hsame, fs0, fs1, hp, h0, hg⟩ := a3 j hj
  obtain ⟨d, hd, hf', hr'⟩ := hcov.1 j' hj'
  rw [choiceFile_eq hb] at hf hf'
  have hs : c.Same d := by
    apply coreFile_inj fs hb.1 (hdoc c hc) (hdoc d hd)
    rw [← hf, ← hf', pkl_eq, pkl_eq]
    exact hsame _ isExt_pkl
  refine ⟨j'.2, hs.result hr', ?_⟩
  have hfile : coreFile outDir base c = j'.1 := by rw [hf', hs.file]
  rw [hfile]
  refine holds_of_job (res := j'.2) hp h0 a1 (fun e he => ?_)
  rw [← hsame e he]
  exact hg e he

/-- **C67** The same without any assumption on the options: a file with the name of a combination always exists and holds
the result of some combination whose name leads to the same file (unknown operations are skipped, but appear in the
name). -/
theorem C67_any_options {L : Lib} {fs fs' : Fs} {pre base fmt outDir : Str} {outFormat : Option Str}
    {ws ss rs ns : List (Option Str)} {gz : Bool} (hb : IsBase pre base)
    (h : buildSpaces L fs pre fmt outDir outFormat ws ss rs ns gz = .ok fs') :
    ∃ input, InputSpace L fs pre gz fmt input ∧ ∀ c, choices ws ss rs ns c →
      ∃ d res, choices ws ss rs ns d ∧ d.Result L.env input res ∧
        fs.resolve (coreFile outDir base c ++ cs!".pkl") = fs.resolve (coreFile outDir base d ++ cs!".pkl") ∧
        fs'.read (coreFile outDir base c ++ cs!".pkl") = .ok (L.dump (.space res)) := by
  obtain ⟨input, h1, js, hcov, hrun⟩ := buildSpaces_jobs h
  refine ⟨input, readInput_ok.1 h1, fun c hc => ?_⟩
  obtain ⟨a1, _, a3⟩ := runJobs_spec js hrun
  obtain ⟨j, hj, hf, hr⟩ := hcov.2 c hc
  obtain ⟨j', hj', hsame, fs0, fs1, hp, h0, hg⟩ := a3 j hj
  obtain ⟨d, hd, hf', hr'⟩ := hcov.1 j' hj'
  rw [choiceFile_eq hb] at hf hf'
  have hsame' : SameNode fs (coreFile outDir base c) (coreFile outDir base d) := by rw [← hf, ← hf']; exact hsame
  refine ⟨d, j'.2, hd, hr', by rw [pkl_eq, pkl_eq]; exact hsame' _ isExt_pkl, ?_⟩
  have hh := holds_of_job (file := j'.1) (res := j'.2) hp h0 a1 (fun e he => by rw [← hsame e he]; exact hg e he)
  have := hh.pickle
  rw [hf'] at this
  rw [← this]
  unfold Fs.read
  rw [Fs.resolve_cwd a1, Fs.resolve_cwd a1, pkl_eq, pkl_eq, hsame' _ isExt_pkl]
  simp

/-- **C67** Combinations of documented operations that differ in some operation are stored in different files, whatever
the output directory is. -/
theorem C67_distinct_names (fs : Fs) {outDir base : Str} (hb : '/' ∉ base) {c d : Choice} (hc : c.Documented)
    (hd : d.Documented) (hne : ¬ c.Same d) :
    fs.resolve (coreFile outDir base c ++ cs!".pkl") ≠ fs.resolve (coreFile outDir base d ++ cs!".pkl") :=
  fun h => hne (coreFile_inj fs hb hc hd h)

/-- **C67** No other file is touched. -/
theorem C67_other_files {L : Lib} {fs fs' : Fs} {pre base fmt outDir : Str} {outFormat : Option Str}
    {ws ss rs ns : List (Option Str)} {gz : Bool} (hb : IsBase pre base)
    (h : buildSpaces L fs pre fmt outDir outFormat ws ss rs ns gz = .ok fs') {p : Str}
    (hp : ∀ c, choices ws ss rs ns c → ∀ e ∈ outExts, fs.resolve p ≠ fs.resolve (coreFile outDir base c ++ ['.'] ++ e)) :
    fs'.read p = fs.read p := by
  obtain ⟨input, h1, js, hcov, hrun⟩ := buildSpaces_jobs h
  obtain ⟨a1, a2, _⟩ := runJobs_spec js hrun
  refine read_congr a1 (a2 _ (fun j hj e he => ?_))
  obtain ⟨c, hc, hf, _⟩ := hcov.1 j hj
  rw [choiceFile_eq hb] at hf
  rw [hf]
  exact hp c hc e he

/-- **C67** An unknown input format, or format `sm` without a column file, is a `ValueError`. -/
theorem C67_bad_input {L : Lib} {fs : Fs} {pre fmt outDir : Str} {outFormat : Option Str} {ws ss rs ns : List (Option Str)}
    {gz : Bool} (h : fmt ∉ [cs!"pkl", cs!"sm", cs!"dm"] ∨ (fmt = cs!"sm" ∧ fs.exists_ (pre ++ cs!".cols") = false)) :
    buildSpaces L fs pre fmt outDir outFormat ws ss rs ns gz = .error .valueError := by
  unfold buildSpaces
  rw [readInput_bad h]
  rfl

/-! ### Success -/

theorem forFs_ok {α : Type} {f : ℕ → α → Fs → Py Fs} {I : Fs → Prop} :
    ∀ (xs : List α) (i : ℕ) (fs : Fs), (∀ i x fs, x ∈ xs → I fs → ∃ fs', f i x fs = .ok fs' ∧ I fs') → I fs →
      ∃ fs', forFs f i xs fs = .ok fs' ∧ I fs' := by
  intro xs
  induction xs with
  | nil => intro i fs _ hI; exact ⟨fs, rfl, hI⟩
  | cons x xs ih =>
    intro i fs hstep hI
    obtain ⟨fs1, h1, hI1⟩ := hstep i x fs (by simp) hI
    obtain ⟨fs2, h2, hI2⟩ := ih (i + 1) fs1 (fun i y fs hy => hstep i y fs (by simp [hy])) hI1
    exact ⟨fs2, by simp only [forFs, h1, ok_bind, h2], hI2⟩

/-- The same with the number of the pass. -/
theorem forFs_ok_idx {α : Type} {f : ℕ → α → Fs → Py Fs} {I : Fs → Prop} :
    ∀ (xs : List α) (i : ℕ) (fs : Fs), (∀ k x fs, xs[k]? = some x → I fs → ∃ fs', f (i + k) x fs = .ok fs' ∧ I fs') → I fs →
      ∃ fs', forFs f i xs fs = .ok fs' ∧ I fs' := by
  intro xs
  induction xs with
  | nil => intro i fs _ hI; exact ⟨fs, rfl, hI⟩
  | cons x xs ih =>
    intro i fs hstep hI
    obtain ⟨fs1, h1, hI1⟩ := hstep 0 x fs rfl hI
    obtain ⟨fs2, h2, hI2⟩ := ih (i + 1) fs1 (fun k y fs hy => by
      have := hstep (k + 1) y fs hy
      rwa [show i + (k + 1) = i + 1 + k by omega] at this) hI1
    exact ⟨fs2, by rw [Nat.add_zero] at h1; simp only [forFs, h1, ok_bind, h2], hI2⟩

theorem exists_of_and {α : Type} {P Q : α → Prop} (h : ∃ x, P x ∧ Q x) : ∃ x, P x := ⟨h.choose, h.choose_spec.1⟩

theorem wdoc {t : Option Str} (h : NoneLike t ∨ ∃ a, a ≠ [] ∧ WMeans t a) :
    ∃ a, WMeans t a ∧ ∀ env (s : Space Str), applyWeighting env s t = s.applyAll env a := by
  rcases h with h | ⟨a, ha, h⟩
  · refine ⟨[], (wskip h).2 rfl, fun env s => ?_⟩
    rcases h with rfl | rfl | rfl <;> rfl
  · refine ⟨a, h, fun env s => ?_⟩
    cases h with
    | skip => exact absurd rfl ha
    | named hm =>
      rw [applyAll_single]
      simp only [weightingTable, List.mem_cons, Prod.mk.injEq, List.not_mem_nil, or_false] at hm
      rcases hm with ⟨rfl, rfl⟩ | ⟨rfl, rfl⟩ | ⟨rfl, rfl⟩ | ⟨rfl, rfl⟩ <;> rfl

theorem ndoc {t : Option Str} (h : NoneLike t ∨ ∃ a, a ≠ [] ∧ NMeans t a) :
    ∃ a, NMeans t a ∧ ∀ env (s : Space Str), applyNormalization env s t = s.applyAll env a := by
  rcases h with h | ⟨a, ha, h⟩
  · refine ⟨[], (nskip h).2 rfl, fun env s => ?_⟩
    rcases h with rfl | rfl | rfl <;> rfl
  · refine ⟨a, h, fun env s => ?_⟩
    cases h with
    | skip => exact absurd rfl ha
    | named hm =>
      rw [applyAll_single]
      simp only [normalizationTable, List.mem_cons, Prod.mk.injEq, List.not_mem_nil, or_false] at hm
      rcases hm with ⟨rfl, rfl⟩ | ⟨rfl, rfl⟩ <;> rfl

theorem positiveDim_pos {k : ℕ} (h : 0 < k) : positiveDim (k : ℤ) = .ok k := by
  unfold positiveDim
  rw [if_neg (by omega)]
  simp

theorem sdoc {t : Option Str} (h : NoneLike t ∨ ∃ a, a ≠ [] ∧ SMeans t a) :
    ∃ a, SMeans t a ∧ ∀ env (s : Space Str), applySelection env s t = s.applyAll env a := by
  rcases h with h | ⟨a, ha, h⟩
  · refine ⟨[], (sskip h).2 rfl, fun env s => ?_⟩
    rcases h with rfl | rfl | rfl <;> rfl
  · refine ⟨a, h, fun env s => ?_⟩
    cases h with
    | skip => exact absurd rfl ha
    | @named p d c k hm hd hi hk =>
      rw [applyAll_single]
      obtain ⟨cr, h1, h2⟩ := sel_split hm hd
      unfold applySelection
      have hne : p ++ d ≠ cs!"none" := by
        simp only [selectionTable, List.mem_cons, Prod.mk.injEq, List.not_mem_nil, or_false] at hm
        rcases hm with ⟨rfl, _⟩ | ⟨rfl, _⟩ <;> simp
      simp only [if_neg hne]
      simp only [] at h1
      rw [h1]
      simp only [ne_eq, not_true, if_false]
      rw [h2]
      simp only [hi, ok_bind, positiveDim_pos hk]

theorem rdoc {t : Option Str} (h : NoneLike t ∨ ∃ a, a ≠ [] ∧ RMeans t a) (ch : Chance) :
    ∃ a, RMeans t a ∧ (∀ n c, .dimred (.nmf n c) ∈ a → c = ch) ∧
      ∀ env (s : Space Str), applyReduction env ch s t = s.applyAll env a := by
  rcases h with h | ⟨a, ha, h⟩
  · refine ⟨[], (rskip h).2 rfl, by simp, fun env s => ?_⟩
    rcases h with rfl | rfl | rfl <;> rfl
  · cases h with
    | skip => exact absurd rfl ha
    | @svd d k hd hi hk =>
      refine ⟨_, .svd hd hi hk, by simp, fun env s => ?_⟩
      rw [applyAll_single]
      have hs : splitCh '_' (cs!"svd_" ++ d) = [cs!"svd", d] := by
        have := splitCh_name '_' cs!"svd" hd
        simpa [splitCh, splitChAux] using this
      unfold applyReduction
      have hne : cs!"svd_" ++ d ≠ cs!"none" := by simp
      simp only [if_neg hne]
      rw [hs]
      simp only [reductionOf, if_true, hi, ok_bind, positiveDim_pos hk]
    | @nmf d k ch' hd hi hk =>
      refine ⟨_, .nmf ch hd hi hk, by simp, fun env s => ?_⟩
      rw [applyAll_single]
      have hs : splitCh '_' (cs!"nmf_" ++ d) = [cs!"nmf", d] := by
        have := splitCh_name '_' cs!"nmf" hd
        simpa [splitCh, splitChAux] using this
      unfold applyReduction
      have hne : cs!"nmf_" ++ d ≠ cs!"none" := by simp
      simp only [if_neg hne]
      rw [hs]
      have hr : reductionOf cs!"nmf" ch = some (fun k => .nmf k ch) := by
        simp [reductionOf]
      simp only [hr, hi, ok_bind, positiveDim_pos hk]

/-- The run also creates no directories except on the way to the output directory. -/
theorem buildSpaces_total {L : Lib} {fs : Fs} {pre base fmt outDir : Str} {ws ss rs ns : List (Option Str)} {gz : Bool}
    (hb : IsBase pre base) (hdoc : ∀ c, choices ws ss rs ns c → c.Documented) (hss : ss ≠ []) (hrs : rs ≠ []) (hns : ns ≠ [])
    {input : Space Str} (hin : InputSpace L fs pre gz fmt input)
    (happ : ∀ (i j k : ℕ) (c : Choice), ws[i]? = some c.w → ss[j]? = some c.s → rs[k]? = some c.r → c.n ∈ ns →
      ∀ a b d e, WMeans c.w a → SMeans c.s b → RMeans c.r d → (∀ n ch, .dimred (.nmf n ch) ∈ d → ch = L.chance i j k) →
      NMeans c.n e → ∃ res, input.applyAll L.env (a ++ b ++ d ++ e) = .ok res)
    (hout : OutDir fs (fs.resolve (outDir ++ ['/'])))
    (hnodir : ∀ c, choices ws ss rs ns c → fs.resolve (coreFile outDir base c ++ cs!".pkl") ∉ fs.dirs) :
    ∃ fs', buildSpaces L fs pre fmt outDir none ws ss rs ns gz = .ok fs' ∧
      OutDir fs' (fs.resolve (outDir ++ ['/'])) ∧ fs'.cwd = fs.cwd ∧
      ∀ d ∈ fs'.dirs, d ∈ fs.dirs ∨ d <+: fs.resolve (outDir ++ ['/']) := by
  obtain ⟨s0, hs0⟩ := List.exists_mem_of_ne_nil ss hss
  obtain ⟨r0, hr0⟩ := List.exists_mem_of_ne_nil rs hrs
  obtain ⟨j0, hj0⟩ := List.mem_iff_getElem?.1 hs0
  obtain ⟨k0, hk0⟩ := List.mem_iff_getElem?.1 hr0
  obtain ⟨n0, hn0⟩ := List.exists_mem_of_ne_nil ns hns
  let I : Fs → Prop := fun g => OutDir g (fs.resolve (outDir ++ ['/'])) ∧ g.cwd = fs.cwd ∧
    ∀ d ∈ g.dirs, d ∈ fs.dirs ∨ d <+: fs.resolve (outDir ++ ['/'])
  have hI0 : I fs := ⟨hout, rfl, fun d hd => Or.inl hd⟩
  have happly : ∀ {a b : List Trans} {s : Space Str}, (∃ r, input.applyAll L.env (a ++ b) = .ok r) →
      input.applyAll L.env a = .ok s → ∃ r, s.applyAll L.env b = .ok r := by
    intro a b s ⟨r, hr⟩ ha
    rw [applyAll_append', ha] at hr
    exact ⟨r, hr⟩
  have hfirst : ∀ {a b : List Trans}, (∃ r, input.applyAll L.env (a ++ b) = .ok r) → ∃ r, input.applyAll L.env a = .ok r := by
    intro a b ⟨r, hr⟩
    rw [applyAll_append', bind_eq_ok] at hr
    exact ⟨_, hr.choose_spec.1⟩
  have hprint : ∀ c, choices ws ss rs ns c → ∀ (s : Space Str) (g : Fs), I g → ∃ g',
      printSpace L s outDir [some (coreDescr pre), c.w, c.s, c.r, c.n] none g = .ok g' ∧ I g' := by
    intro c hc s g hg
    have hfile : spaceFile outDir [some (coreDescr pre), c.w, c.s, c.r, c.n] = coreFile outDir base c :=
      choiceFile_eq hb c
    have hnm : coreFile outDir base c ++ cs!".pkl" =
        outDir ++ '/' :: (cs!"CORE_SS." ++ base ++ (c.kept.map (fun t => '.' :: t)).flatten ++ cs!".pkl") := by
      rw [coreFile_kept]; simp
    have hslash : '/' ∉ cs!"CORE_SS." ++ base ++ (c.kept.map (fun t => '.' :: t)).flatten ++ cs!".pkl" := by
      have hk := kept_noc (hdoc c hc)
      simp only [List.mem_append, not_or, List.mem_flatten, List.mem_map, not_exists, not_and]
      refine ⟨⟨⟨by decide, hb.1⟩, ?_⟩, by decide⟩
      rintro x ⟨t, ht, rfl⟩ hx
      rcases List.mem_cons.1 hx with hx | hx
      · cases hx
      · exact (hk t ht).2 hx
    obtain ⟨g1, g2, g3⟩ := hg
    have hrg : g.resolve (outDir ++ ['/']) = fs.resolve (outDir ++ ['/']) := Fs.resolve_cwd g2 _
    obtain ⟨g', k1, k2, k3, k4, k5⟩ := OutDir.save (fs := g) (c := L.dump (.space s)) (by rw [hrg]; exact g1) hslash (by simp)
      (by simp) (by
        rw [← hnm, Fs.resolve_cwd g2]
        intro hm
        rcases g3 _ hm with hm | hm
        · exact hnodir c hc hm
        · have := hm.length_le
          rw [coreFile_resolve fs hb.1 (hdoc c hc)] at this
          simp at this)
    refine ⟨g', ?_, by rw [← hrg]; exact k2, k3.trans g2, ?_⟩
    · unfold printSpace
      rw [hfile, hnm, k1, ok_bind]
      rfl
    · intro d hd
      rcases k5 d hd with hd | hd
      · exact g3 d hd
      · right; rw [← hrg]; exact hd
  unfold buildSpaces
  rw [readInput_ok.2 hin, ok_bind]
  refine forFs_ok_idx (I := I) ws 0 fs ?_ hI0
  · intro i w g hiw hg
    rw [Nat.zero_add]
    have hw := List.mem_of_getElem? hiw
    have dw := (hdoc ⟨w, s0, r0, n0⟩ ⟨hw, hs0, hr0, hn0⟩)
    obtain ⟨a, ha, ea⟩ := wdoc dw.w
    obtain ⟨b0, hb0, _⟩ := sdoc dw.s
    obtain ⟨d0, hd0, hc0, _⟩ := rdoc dw.r (L.chance i j0 k0)
    obtain ⟨e0, he0, _⟩ := ndoc dw.n
    have hfull := happ i j0 k0 ⟨w, s0, r0, n0⟩ hiw hj0 hk0 hn0 a b0 d0 e0 ha hb0 hd0 hc0 he0
    obtain ⟨wS, hwS⟩ := hfirst (hfirst (hfirst hfull))
    simp only [] at ea
    simp only [ea, hwS, ok_bind]
    unfold selLoop
    refine forFs_ok_idx (I := I) ss 0 g ?_ hg
    intro j s g hjs hg
    rw [Nat.zero_add]
    have hs := List.mem_of_getElem? hjs
    have ds := (hdoc ⟨w, s, r0, n0⟩ ⟨hw, hs, hr0, hn0⟩)
    obtain ⟨b, hb', eb⟩ := sdoc ds.s
    obtain ⟨d0, hd0, hc0, _⟩ := rdoc dw.r (L.chance i j k0)
    have hfull := happ i j k0 ⟨w, s, r0, n0⟩ hiw hjs hk0 hn0 a b d0 e0 ha hb' hd0 hc0 he0
    obtain ⟨sS, hsS⟩ := hfirst (hfirst hfull)
    have hsS' : wS.applyAll L.env b = .ok sS := by
      rw [applyAll_append', hwS] at hsS; exact hsS
    simp only [] at eb
    simp only [eb, hsS', ok_bind]
    unfold redLoop
    refine forFs_ok_idx (I := I) rs 0 g ?_ hg
    intro k r g hkr hg
    rw [Nat.zero_add]
    have hr := List.mem_of_getElem? hkr
    have dr := (hdoc ⟨w, s, r, n0⟩ ⟨hw, hs, hr, hn0⟩)
    obtain ⟨d, hd, hcd, ed⟩ := rdoc dr.r (L.chance i j k)
    have hfull := happ i j k ⟨w, s, r, n0⟩ hiw hjs hkr hn0 a b d e0 ha hb' hd hcd he0
    obtain ⟨rS, hrS⟩ := hfirst hfull
    have hrS' : sS.applyAll L.env d = .ok rS := by
      rw [applyAll_append', hsS] at hrS; exact hrS
    simp only [] at ed
    simp only [ed, hrS', ok_bind]
    unfold normLoop
    refine forFs_ok (I := I) ns 0 g ?_ hg
    intro l n g hn hg
    have dn := (hdoc ⟨w, s, r, n⟩ ⟨hw, hs, hr, hn⟩)
    obtain ⟨e, he, ee⟩ := ndoc dn.n
    obtain ⟨nS, hnS⟩ := happ i j k ⟨w, s, r, n⟩ hiw hjs hkr hn a b d e ha hb' hd hcd he
    have hnS' : rS.applyAll L.env e = .ok nS := by
      rw [applyAll_append', hrS] at hnS; exact hnS
    simp only [] at ee
    simp only [ee, hnS', ok_bind]
    exact hprint ⟨w, s, r, n⟩ ⟨hw, hs, hr, hn⟩ nS g hg

/-- **C67** `build_spaces` (without additional format) succeeds on documented options when the input can be read, every
requested sequence of operations succeeds (an NMF with the random numbers it draws), no regular file lies on the way to the output directory and none of the files
to be written is a directory. -/
theorem C67_succeeds {L : Lib} {fs : Fs} {pre base fmt outDir : Str} {ws ss rs ns : List (Option Str)} {gz : Bool}
    (hb : IsBase pre base) (hdoc : ∀ c, choices ws ss rs ns c → c.Documented) (hss : ss ≠ []) (hrs : rs ≠ []) (hns : ns ≠ [])
    {input : Space Str} (hin : InputSpace L fs pre gz fmt input)
    (happ : ∀ (i j k : ℕ) (c : Choice), ws[i]? = some c.w → ss[j]? = some c.s → rs[k]? = some c.r → c.n ∈ ns →
      ∀ a b d e, WMeans c.w a → SMeans c.s b → RMeans c.r d → (∀ n ch, .dimred (.nmf n ch) ∈ d → ch = L.chance i j k) →
      NMeans c.n e → ∃ res, input.applyAll L.env (a ++ b ++ d ++ e) = .ok res)
    (hout : OutDir fs (fs.resolve (outDir ++ ['/'])))
    (hnodir : ∀ c, choices ws ss rs ns c → fs.resolve (coreFile outDir base c ++ cs!".pkl") ∉ fs.dirs) :
    ∃ fs', buildSpaces L fs pre fmt outDir none ws ss rs ns gz = .ok fs' := by
  obtain ⟨fs', h, -⟩ := buildSpaces_total hb hdoc hss hrs hns hin happ hout hnodir
  exact ⟨fs', h⟩

/-! ### The hypotheses are met -/

/-- A two by three space with string labels. -/
theorem ex_space_str : ∃ s : Space Str, s.WF ∧ s.mat = exMat .sparse ∧ s.id2row = [cs!"dog", cs!"cat"] ∧
    s.id2col = [cs!"a", cs!"b", cs!"c"] ∧ s.ops = [] ∧ s.elemShape = [3] := by
  obtain ⟨s, hs⟩ := (C01_accepts_iff (exMat .sparse) [cs!"dog", cs!"cat"] [cs!"a", cs!"b", cs!"c"] none none [] none).2
    ⟨by simp, by simp, by simp, by simp, rfl, fun _ => rfl, by simp⟩
  obtain ⟨h0, h1, h2, h3, h4, h5, _⟩ := C01_result _ _ _ _ _ _ _ s hs
  exact ⟨s, h0, h1, h2, h3, h4, h5⟩

theorem exMat_nonneg (ty : MTy) : NonNegative (exMat ty).val := by
  intro i j hi hj
  have hi' : i < 2 := hi
  have hj' : j < 3 := hj
  show 0 ≤ (Mat.of 2 3 _).get i j
  rw [Mat.of_get_lt hi' hj']
  exact Nat.cast_nonneg _

/-- A file system with one pickle. -/
def exFs : Fs := ⟨[cs!"home"], [[], [cs!"home"], [cs!"data"]], (Dict.empty).set [cs!"data", cs!"in.pkl"] cs!"S"⟩

theorem exFs_keys : exFs.files.keys = [[cs!"data", cs!"in.pkl"]] := rfl

theorem exFs_ok : exFs.Ok := by
  refine ⟨by decide, by decide, ?_, ?_, ?_⟩
  · show ∀ d ∈ [[], [cs!"home"], [cs!"data"]], d.dropLast ∈ [[], [cs!"home"], [cs!"data"]]
    decide
  · rw [exFs_keys]
    show ∀ f ∈ [[cs!"data", cs!"in.pkl"]], f.dropLast ∈ [[], [cs!"home"], [cs!"data"]]
    decide
  · rw [exFs_keys]
    show ∀ f ∈ [[cs!"data", cs!"in.pkl"]], f ∉ [[], [cs!"home"], [cs!"data"]]
    decide

/-- `-w ppmi,none -s top_sum_2,none` on a pickled space: all four combinations are written. -/
theorem exCore_run {L : Lib} {fs : Fs} {s : Space Str} {ty : MTy} (hwf : s.WF) (hm : s.mat = exMat ty) (hsh : s.elemShape = [3])
    (hu : HoldsSpace L fs cs!"/data/in.pkl" s) (ho : OutDir fs (fs.resolve (cs!"/out/x" ++ ['/'])))
    (hfree : ∀ ch, choices [some cs!"ppmi", some cs!"none"] [some cs!"top_sum_2", none] [none] [none] ch →
      fs.resolve (coreFile cs!"/out/x" cs!"in" ch ++ cs!".pkl") ∉ fs.dirs) :
    ∃ fs', buildSpaces L fs cs!"/data/in" cs!"pkl" cs!"/out/x" none [some cs!"ppmi", some cs!"none"]
      [some cs!"top_sum_2", none] [none] [none] false = .ok fs' := by
  have hsel : SMeans (some cs!"top_sum_2") [.featsel 2 .sum] :=
    SMeans.named (p := cs!"top_sum_") (d := cs!"2") (by decide) (by decide) rfl (by decide)
  have hnr : 0 < s.mat.nr := by rw [hm]; simp [exMat, TMat.nr]
  have hnc : 0 < s.mat.nc := by rw [hm]; simp [exMat, TMat.nc]
  refine C67_succeeds (base := cs!"in") (input := s) ⟨by decide, Or.inr ⟨cs!"/data", rfl⟩⟩ ?_ (by simp) (by simp) (by simp) ?_ ?_ ?_ ?_
  · rintro ⟨w, t, r, n⟩ ⟨hw, hs, hr, hn⟩
    simp only [List.mem_cons, List.not_mem_nil, or_false] at hw hs hr hn
    subst hr hn
    refine ⟨?_, ?_, Or.inl (Or.inl rfl), Or.inl (Or.inl rfl)⟩
    · rcases hw with rfl | rfl
      · exact Or.inr ⟨_, by simp, .named (sc := .ppmi) (by decide)⟩
      · exact Or.inl (Or.inr (Or.inr rfl))
    · rcases hs with rfl | rfl
      · exact Or.inr ⟨_, by simp, hsel⟩
      · exact Or.inl (Or.inl rfl)
  · exact .pickle hu
  · rintro i0 j0 k0 ⟨w, t, r, n⟩ hw hs hr hn a b d e ha hb hd hch he
    replace hw := List.mem_of_getElem? hw
    replace hs := List.mem_of_getElem? hs
    replace hr := List.mem_of_getElem? hr
    simp only [List.mem_cons, List.not_mem_nil, or_false] at hw hs hr hn
    subst hr hn
    rw [rskip (Or.inl rfl)] at hd
    rw [nskip (Or.inl rfl)] at he
    subst hd he
    rw [List.append_nil, List.append_nil, applyAll_append']
    have h1 : ∃ s1, s.applyAll L.env a = .ok s1 ∧ s1.WF ∧ 0 < s1.mat.nr ∧ 0 < s1.mat.nc ∧ s1.elemShape.length ≤ 1 := by
      rcases hw with rfl | rfl
      · obtain ⟨a', ha', hap⟩ := wdoc (t := some cs!"ppmi") (Or.inr ⟨_, by simp, .named (sc := .ppmi) (by decide)⟩)
        obtain ⟨s1, hs1⟩ := (C05_apply_total L.env s hwf hnr hnc).1 .ppmi (by rw [hm]; exact exMat_nonneg _)
        have hcase : a = [.scaling .ppmi] := by
          cases ha with
          | skip h => exact absurd rfl (h (cs!"ppmi", .ppmi) (by decide))
          | named h =>
            simp only [weightingTable, List.mem_cons, Prod.mk.injEq, List.not_mem_nil, or_false] at h
            rcases h with ⟨_, rfl⟩ | ⟨h, _⟩ | ⟨h, _⟩ | ⟨h, _⟩
            · rfl
            · simp at h
            · simp at h
            · simp at h
        refine ⟨s1, by rw [hcase, applyAll_single]; exact hs1, ?_⟩
        obtain ⟨k1, _, _, k2, _⟩ := C05_apply L.env s s1 _ hs1
        obtain ⟨_, _, k3, k4, _⟩ := C05_scaling_keeps_columns L.env s s1 _ hnr hs1
        exact ⟨k1, by rw [k3]; exact hnr, by rw [k4]; exact hnc, by rw [k2]; simp⟩
      · rw [wskip (Or.inr (Or.inr rfl))] at ha
        subst ha
        exact ⟨s, rfl, hwf, hnr, hnc, by rw [hsh]; simp⟩
    obtain ⟨s1, h1, w1, n1, c1, l1⟩ := h1
    rw [h1, ok_bind]
    rcases hs with rfl | rfl
    · have hb' : ∃ t, t = some cs!"top_sum_2" ∧ SMeans t b := ⟨_, rfl, hb⟩
      obtain ⟨t, ht, hb'⟩ := hb'
      cases hb' with
      | skip h => exact absurd ht (h (cs!"top_sum_", .sum) (by decide) cs!"2" (by decide))
      | @named p d c k h1 h2 h3 h4 =>
        rw [applyAll_single]
        exact (C05_apply_total L.env s1 w1 n1 c1).2 k c h4 l1
    · rw [sskip (Or.inl rfl)] at hb
      subst hb
      exact ⟨s1, rfl⟩
  · exact ho
  · exact hfree

/-- The same with output to a new directory. -/
example (L : Lib) (hL : ∃ s : Space Str, s.WF ∧ s.mat = exMat .sparse ∧ s.elemShape = [3] ∧ L.undump cs!"S" = some (.space s)) :
    ∃ fs', buildSpaces L exFs cs!"/data/in" cs!"pkl" cs!"/out/x" none [some cs!"ppmi", some cs!"none"]
      [some cs!"top_sum_2", none] [none] [none] false = .ok fs' := by
  obtain ⟨s, hwf, hm, hsh, hu⟩ := hL
  refine exCore_run hwf hm hsh ⟨cs!"S", rfl, hu⟩ ⟨exFs_ok, ?_⟩ ?_
  · rw [exFs_keys]
    show ∀ f ∈ [[cs!"data", cs!"in.pkl"]], ¬ f <+: [cs!"out", cs!"x"]
    decide
  · rintro ⟨w, t, r, n⟩ ⟨hw, hs, hr, hn⟩
    simp only [List.mem_cons, List.not_mem_nil, or_false] at hw hs hr hn
    subst hr hn
    have hd : exFs.dirs = [[], [cs!"home"], [cs!"data"]] := rfl
    rw [hd]
    rcases hw with rfl | rfl <;> rcases hs with rfl | rfl <;> decide

end
end Dissect
