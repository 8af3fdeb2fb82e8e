import Verif.Props.ApplyComp
import Verif.Props.Sims
import Verif.Props.Peripheral
import Verif.Props.SimsTotal

/-! # C81: `build_peripheral_space.py` -/

namespace Dissect
noncomputable section

/-- The name of the output without extension. -/
def periphFile (outDir base st : Str) : Str := outDir ++ cs!"/PER_SS." ++ base ++ ['.'] ++ st

/-- The peripheral space of the core space: the matrix and rows of the raw space. -/
def PeriphFrom (raw core p : Space Str) : Prop := Periph.new core raw.mat raw.id2row (some raw.row2id) = .ok p

theorem periphFile_eq {pre base core st : Str} (hb : IsBase pre base) (hs : IsStem core st) (outDir : Str) :
    outDir ++ ['/'] ++ (cs!"PER_SS." ++ lastComp pre) ++ ['.'] ++ stem core = periphFile outDir base st := by
  rw [lastComp_of_base hb, stem_eq hs]
  simp [periphFile]

theorem transformRaw_ok {L : Lib} {raw : Space Str} {pre base outDir core st : Str} {fmt : Option Str} {fs fs' : Fs}
    (hb : IsBase pre base) (hs : IsStem core st) :
    transformRaw L raw pre outDir fmt core fs = .ok fs' ↔
    ∃ c p, HoldsSpace L fs core c ∧ PeriphFrom raw c p ∧ printJob L fmt (periphFile outDir base st, p) fs = .ok fs' := by
  unfold transformRaw
  simp only [bind_eq_ok, periphFile_eq hb hs, loadSpace_ok, printJob]
  constructor
  · rintro ⟨c, h1, p, h2, fs1, h3, h4⟩; exact ⟨c, p, h1, h2, fs1, h3, h4⟩
  · rintro ⟨c, p, h1, h2, fs1, h3, h4⟩; exact ⟨c, h1, p, h2, fs1, h3, h4⟩

/-- **C81** When `build_space` returns, `PER_SS.<input>.<core>.pkl` in the output directory holds the peripheral space
built from the core space and the raw input; the additional format, if any, is the export of the same space. -/
theorem C81_saves {L : Lib} {fs fs' : Fs} {pre base fmt outDir core st : Str} {outFormat : Option Str} {gz : Bool}
    (hb : IsBase pre base) (hs : IsStem core st)
    (h : buildPeriph L fs pre fmt outDir outFormat core gz = .ok fs') :
    ∃ raw c p, InputSpace L fs pre gz fmt raw ∧ HoldsSpace L fs core c ∧ PeriphFrom raw c p ∧
      Holds L fs fs' outFormat (periphFile outDir base st) p := by
  simp only [buildPeriph, bind_eq_ok] at h
  obtain ⟨raw, h1, h2⟩ := h
  obtain ⟨c, p, h3, h4, h5⟩ := (transformRaw_ok hb hs).1 h2
  exact ⟨raw, c, p, readInput_ok.1 h1, h3, h4, holds_of_job h5 rfl (printJob_frame h5).1 (fun e _ => rfl)⟩

/-- **C81** No other file is touched. -/
theorem C81_other_files {L : Lib} {fs fs' : Fs} {pre base fmt outDir core st : Str} {outFormat : Option Str} {gz : Bool}
    (hb : IsBase pre base) (hs : IsStem core st)
    (h : buildPeriph L fs pre fmt outDir outFormat core gz = .ok fs') {p : Str}
    (hp : ∀ e ∈ outExts, fs.resolve p ≠ fs.resolve (periphFile outDir base st ++ ['.'] ++ e)) : fs'.read p = fs.read p := by
  simp only [buildPeriph, bind_eq_ok] at h
  obtain ⟨raw, h1, h2⟩ := h
  obtain ⟨c, q, h3, h4, h5⟩ := (transformRaw_ok hb hs).1 h2
  obtain ⟨a, b⟩ := printJob_frame h5
  exact read_congr a (b _ hp)

/-- **C81** The run succeeds whenever the input and the core space can be read, the peripheral space can be built, and the
output directory exists or can be created. -/
theorem C81_succeeds {L : Lib} {fs : Fs} {pre base fmt outDir core st : Str} {gz : Bool}
    (hb : IsBase pre base) (hs : IsStem core st) {raw c p : Space Str} (h1 : InputSpace L fs pre gz fmt raw)
    (h2 : HoldsSpace L fs core c) (h3 : PeriphFrom raw c p) (ho : OutDir fs (fs.resolve (outDir ++ ['/'])))
    (hfree : fs.resolve (periphFile outDir base st ++ cs!".pkl") ∉ fs.dirs) :
    ∃ fs', buildPeriph L fs pre fmt outDir none core gz = .ok fs' := by
  have hq : periphFile outDir base st ++ cs!".pkl" = outDir ++ '/' :: (cs!"PER_SS." ++ base ++ ['.'] ++ st ++ cs!".pkl") := by
    simp [periphFile]
  rw [hq] at hfree
  obtain ⟨fs', hsv, _⟩ := ho.save (nm := cs!"PER_SS." ++ base ++ ['.'] ++ st ++ cs!".pkl") (c := L.dump (.space p))
    (by simp [hb.1, stem_noslash hs]) (by simp) (by simp) hfree
  refine ⟨fs', ?_⟩
  simp only [buildPeriph, readInput_ok.2 h1, ok_bind]
  exact (transformRaw_ok hb hs).2 ⟨c, p, h2, h3, by simp only [printJob, hq, hsv, ok_bind, exportOpt]⟩

/-- **C81** An unknown input format, or format `sm` without a column file, is a `ValueError`. -/
theorem C81_bad_input {L : Lib} {fs : Fs} {pre fmt outDir core : Str} {outFormat : Option Str} {gz : Bool}
    (h : fmt ∉ [cs!"pkl", cs!"sm", cs!"dm"] ∨ (fmt = cs!"sm" ∧ fs.exists_ (pre ++ cs!".cols") = false)) :
    buildPeriph L fs pre fmt outDir outFormat core gz = .error .valueError := by
  unfold buildPeriph
  rw [readInput_bad h]
  rfl

/-! ### Batch mode -/

theorem forall₂_imp_mem {α β : Type} {R S : α → β → Prop} : ∀ {l : List α} {m : List β}, List.Forall₂ R l m →
    (∀ a ∈ l, ∀ b, R a b → S a b) → List.Forall₂ S l m := by
  intro l m h
  induction h with
  | nil => intro _; exact .nil
  | cons h _ ih => intro hi; exact .cons (hi _ (by simp) _ h) (ih (fun a ha => hi a (by simp [ha])))

theorem forall₂_left {α β : Type} {R : α → β → Prop} : ∀ {l : List α} {m : List β}, List.Forall₂ R l m →
    ∀ a ∈ l, ∃ b ∈ m, R a b := by
  intro l m h
  induction h with
  | nil => intro a ha; cases ha
  | @cons a b l m h _ ih =>
    intro x hx
    rcases List.mem_cons.1 hx with rfl | hx
    · exact ⟨b, by simp, h⟩
    · obtain ⟨y, hy, hr⟩ := ih x hx; exact ⟨y, by simp [hy], hr⟩

theorem forall₂_right {α β : Type} {R : α → β → Prop} : ∀ {l : List α} {m : List β}, List.Forall₂ R l m →
    ∀ b ∈ m, ∃ a ∈ l, R a b := by
  intro l m h
  induction h with
  | nil => intro a ha; cases ha
  | @cons a b l m h _ ih =>
    intro x hx
    rcases List.mem_cons.1 hx with rfl | hx
    · exact ⟨a, by simp, h⟩
    · obtain ⟨y, hy, hr⟩ := ih x hx; exact ⟨y, by simp [hy], hr⟩

theorem stems_of {names : List Str} (h : ∀ n ∈ names, isPkl n = true) : ∃ sts : List Str, names = sts.map (· ++ cs!".pkl") := by
  induction names with
  | nil => exact ⟨[], rfl⟩
  | cons n ns ih =>
    obtain ⟨s, hs⟩ := isPkl_iff.1 (h n (by simp))
    obtain ⟨ss, hss⟩ := ih (fun m hm => h m (by simp [hm]))
    exact ⟨s :: ss, by rw [hs, hss]; rfl⟩

theorem periphFile_resolve (fs : Fs) (outDir : Str) {base st e : Str} (hb : '/' ∉ base) (hs : '/' ∉ st) (he : IsExt e) :
    fs.resolve (periphFile outDir base st ++ ['.'] ++ e) =
      fs.resolve (outDir ++ ['/']) ++ [cs!"PER_SS." ++ base ++ ['.'] ++ st ++ ['.'] ++ e] := by
  rw [← resolve_in fs outDir (nm := cs!"PER_SS." ++ base ++ ['.'] ++ st ++ ['.'] ++ e) (by simp [hb, hs, he.2.1]) (by simp) (by simp)]
  simp [periphFile]

/-- The loop of the batch mode as a list of jobs, when no output is one of the files still to be read. -/
theorem periph_jobs {L : Lib} {raw : Space Str} {pre base outDir dir : Str} {fmt : Option Str} (hb : IsBase pre base) :
    ∀ (sts : List Str) (i : ℕ) (fs fs' : Fs), (∀ s ∈ sts, IsStem (dir ++ (s ++ cs!".pkl")) s) →
    (∀ s ∈ sts, ∀ t ∈ sts, ∀ e ∈ outExts,
      fs.resolve (dir ++ (s ++ cs!".pkl")) ≠ fs.resolve (periphFile outDir base t ++ ['.'] ++ e)) →
    forFs (fun _ name fs => transformRaw L raw pre outDir fmt (dir ++ name) fs) i (sts.map (· ++ cs!".pkl")) fs = .ok fs' →
    ∃ jobs, List.Forall₂ (fun s (j : Str × Space Str) => ∃ c, HoldsSpace L fs (dir ++ (s ++ cs!".pkl")) c ∧
      PeriphFrom raw c j.2 ∧ j.1 = periphFile outDir base s) sts jobs ∧ runJobs L fmt jobs fs = .ok fs' := by
  intro sts
  induction sts with
  | nil => intro i fs fs' _ _ h; exact ⟨[], .nil, h⟩
  | cons s ss ih =>
    intro i fs fs' hst hno h
    simp only [List.map_cons, forFs, bind_eq_ok] at h
    obtain ⟨fs1, h1, h2⟩ := h
    obtain ⟨c, p, k1, k2, k3⟩ := (transformRaw_ok hb (hst s (by simp))).1 h1
    obtain ⟨a, b⟩ := printJob_frame k3
    obtain ⟨jobs, j1, j2⟩ := ih (i + 1) fs1 fs' (fun t ht => hst t (by simp [ht]))
      (fun t ht u hu e he => by
        rw [Fs.resolve_cwd a, Fs.resolve_cwd a]; exact hno t (by simp [ht]) u (by simp [hu]) e he) h2
    refine ⟨(periphFile outDir base s, p) :: jobs, .cons ⟨c, k1, k2, rfl⟩ ?_, by simp only [runJobs, k3, ok_bind]; exact j2⟩
    refine forall₂_imp_mem j1 ?_
    rintro t ht ⟨q1, q2⟩ ⟨c', m1, m2, m3⟩
    refine ⟨c', ?_, m2, m3⟩
    rw [← loadSpace_ok] at m1 ⊢
    rw [← m1]
    exact (holds_congr (read_congr a (b _ (fun e he => hno t (by simp [ht]) s (by simp) e he)))).symm

/-- **C81** In batch mode the peripheral space for every core space of the directory whose name contains the filter and ends
in `.pkl` is written, whatever the order in which the directory is listed. The output directory must not be the input
directory: there an earlier output could itself be taken for a core space. -/
theorem C81_batch {L : Lib} {fs fs' : Fs} {pre base fmt outDir inDir filter : Str} {outFormat : Option Str} {gz : Bool}
    (hb : IsBase pre base) (hnames : fs.NamesOk) (hord : ∀ l, (L.dirOrder l).Perm l)
    (hdirs : fs.resolve (outDir ++ ['/']) ≠ fs.resolve (inDir ++ ['/']))
    (h : buildPeriphBatch L fs pre fmt outDir outFormat inDir filter gz = .ok fs') :
    ∃ raw, InputSpace L fs pre gz fmt raw ∧ ∀ st c, '/' ∉ st → filter <:+: st ++ cs!".pkl" →
      HoldsSpace L fs (inDir ++ '/' :: (st ++ cs!".pkl")) c →
      ∃ p, PeriphFrom raw c p ∧ Holds L fs fs' outFormat (periphFile outDir base st) p := by
  simp only [buildPeriphBatch, bind_eq_ok] at h
  obtain ⟨raw, h1, h⟩ := h
  refine ⟨raw, readInput_ok.1 h1, ?_⟩
  split at h
  swap
  · cases h
  rename_i hex
  have hdne : inDir ≠ [] := by
    rintro rfl
    simp [Fs.exists_] at hex
  rw [bind_eq_ok] at h
  obtain ⟨names, hl, h⟩ := h
  have hnm : ∀ x ∈ names, '/' ∉ x := by
    intro x hx
    unfold Fs.listdir at hl
    split at hl
    · obtain rfl := ok_inj hl
      have := mem_children.1 ((hord _).mem_iff.1 hx)
      exact hnames _ this x (by simp)
    · cases hl
  obtain ⟨sts, hsts⟩ := stems_of (names := names.filter (fun f => containsStr f filter && isPkl f)) (by
    intro n hn
    rw [List.mem_filter, Bool.and_eq_true] at hn
    exact hn.2.2)
  rw [hsts] at h
  have hslash : ∀ s ∈ sts, '/' ∉ s := by
    intro s hs hm
    have : s ++ cs!".pkl" ∈ names := by
      have h2 : s ++ cs!".pkl" ∈ sts.map (· ++ cs!".pkl") := List.mem_map_of_mem hs
      rw [← hsts, List.mem_filter] at h2
      exact h2.1
    exact hnm _ this (by simp [hm])
  have hw : ∀ s, '/' ∉ s → fs.resolve (withSlash inDir ++ (s ++ cs!".pkl")) = fs.resolve (inDir ++ ['/']) ++ [s ++ cs!".pkl"] := by
    intro s hs
    rw [withSlash_slash fs inDir _ hdne]
    exact resolve_in fs inDir (by simp [hs]) (by simp) (by intro h; have := congrArg List.length h; simp at this)
  obtain ⟨jobs, hj, hrun⟩ := periph_jobs hb sts 0 fs fs' (fun s hs => withSlash_stem inDir (hslash s hs))
    (by
      intro s hs t ht e he heq
      rw [hw s (hslash s hs), periphFile_resolve fs outDir hb.1 (hslash t ht) (isExt_of_mem he)] at heq
      exact hdirs (List.append_inj' heq rfl).1.symm) h
  intro st c hst hfil hc
  have hmem : st ∈ sts := by
    have : st ++ cs!".pkl" ∈ names.filter (fun f => containsStr f filter && isPkl f) := by
      rw [List.mem_filter, Bool.and_eq_true]
      refine ⟨?_, by unfold containsStr; exact decide_eq_true hfil, isPkl_iff.2 ⟨_, rfl⟩⟩
      unfold Fs.listdir at hl
      split at hl
      · obtain rfl := ok_inj hl
        rw [(hord _).mem_iff, mem_children]
        obtain ⟨txt, hr, _⟩ := hc
        have hkey : fs.files.get? (fs.resolve (inDir ++ '/' :: (st ++ cs!".pkl"))) = some txt := by
          unfold Fs.read at hr
          split at hr
          · cases hr
          · split at hr
            · rename_i hg
              obtain rfl := ok_inj hr
              exact hg
            · cases hr
        rw [← withSlash_slash fs inDir _ hdne,
          withSlash_resolve fs inDir (by simp [hst]) (by simp) (by intro h; have := congrArg List.length h; simp at this)] at hkey
        exact List.mem_append_right _ (Dict.mem_keys_iff.2 ⟨_, hkey⟩)
      · cases hl
    rw [hsts, List.mem_map] at this
    obtain ⟨s, hs, he⟩ := this
    rwa [← List.append_cancel_right he]
  have hcs : ∀ s, loadSpace L fs (withSlash inDir ++ (s ++ cs!".pkl")) = loadSpace L fs (inDir ++ '/' :: (s ++ cs!".pkl")) := by
    intro s
    unfold loadSpace Fs.load Fs.read
    rw [withSlash_slash fs inDir _ hdne, if_neg (by simp), if_neg (by simp)]
  obtain ⟨a1, _, a3⟩ := runJobs_spec jobs hrun
  obtain ⟨⟨jf, jp⟩, hjm, c1, hc1, hp1, rfl⟩ := forall₂_left hj st hmem
  obtain ⟨⟨jf', jp'⟩, hjm', hsame, fs0, fs1, hpj, h0, hg⟩ := a3 _ hjm
  obtain ⟨t, ht, c2, hc2, hp2, heq⟩ := forall₂_right hj _ hjm'
  simp only at heq hp1 hp2 hsame hpj hg
  subst heq
  have hts : t = st := by
    have := hsame _ isExt_pkl
    rw [periphFile_resolve fs outDir hb.1 hst isExt_pkl, periphFile_resolve fs outDir hb.1 (hslash t ht) isExt_pkl] at this
    have := (List.append_inj' this rfl).2
    simpa using this.symm
  subst hts
  rw [← loadSpace_ok, hcs] at hc2
  rw [loadSpace_ok.2 hc] at hc2
  obtain rfl := ok_inj hc2
  exact ⟨jp', hp2, holds_of_job hpj h0 a1 (fun e he => hg e he)⟩

/-- **C81** In batch mode no file is touched except the outputs for files of the input directory. -/
theorem C81_batch_other_files {L : Lib} {fs fs' : Fs} {pre base fmt outDir inDir filter : Str} {outFormat : Option Str}
    {gz : Bool} (hb : IsBase pre base) (h : buildPeriphBatch L fs pre fmt outDir outFormat inDir filter gz = .ok fs')
    {p : Str} (hp : ∀ st, '/' ∉ st → ∀ e ∈ outExts, fs.resolve p ≠ fs.resolve (periphFile outDir base st ++ ['.'] ++ e)) :
    fs'.read p = fs.read p := by
  simp only [buildPeriphBatch, bind_eq_ok] at h
  obtain ⟨raw, h1, h⟩ := h
  split at h
  swap
  · cases h
  rw [bind_eq_ok] at h
  obtain ⟨names, hl, h⟩ := h
  have key : ∀ (ns : List Str) (i : ℕ) (g g' : Fs), g.cwd = fs.cwd →
      forFs (fun _ name fs => transformRaw L raw pre outDir outFormat (withSlash inDir ++ name) fs) i ns g = .ok g' →
      g'.cwd = fs.cwd ∧ g'.files.get? (fs.resolve p) = g.files.get? (fs.resolve p) := by
    intro ns
    induction ns with
    | nil => intro i g g' hc h; obtain rfl := ok_inj h; exact ⟨hc, rfl⟩
    | cons n ns ih =>
      intro i g g' hc h
      simp only [forFs, bind_eq_ok] at h
      obtain ⟨g1, k1, k2⟩ := h
      obtain ⟨c, q, _, _, k3⟩ := (transformRaw_ok hb (stem_spec _)).1 k1
      obtain ⟨a, b⟩ := printJob_frame k3
      obtain ⟨r1, r2⟩ := ih (i + 1) g1 g' (a.trans hc) k2
      refine ⟨r1, r2.trans (b _ (fun e he => ?_))⟩
      rw [Fs.resolve_cwd hc]
      exact hp _ (stem_noslash (stem_spec _)) e he
  obtain ⟨a, b⟩ := key _ _ _ _ rfl h
  exact read_congr a b

/-- **C81** In batch mode an input directory that does not exist is a `ValueError`. -/
theorem C81_batch_no_dir {L : Lib} {fs : Fs} {pre fmt outDir inDir filter : Str} {outFormat : Option Str} {gz : Bool}
    {raw : Space Str} (hr : InputSpace L fs pre gz fmt raw) (h : fs.exists_ inDir = false) :
    buildPeriphBatch L fs pre fmt outDir outFormat inDir filter gz = .error .valueError := by
  simp only [buildPeriphBatch, readInput_ok.2 hr, ok_bind, h]
  rfl

/-- A run that meets the hypotheses of `C81_succeeds`. -/
example (L : Lib) (s p : Space Str) (hu : L.undump cs!"S" = some (.space s)) (hp : PeriphFrom s s p) :
    ∃ fs', buildPeriph L exFs cs!"/data/in" cs!"pkl" cs!"/out/x" none cs!"/data/in.pkl" false = .ok fs' ∧
      fs'.read cs!"/out/x/PER_SS.in.in.pkl" = .ok (L.dump (.space p)) := by
  have hb : IsBase cs!"/data/in" cs!"in" := ⟨by decide, Or.inr ⟨cs!"/data", rfl⟩⟩
  have hs : IsStem cs!"/data/in.pkl" cs!"in" := ⟨cs!"in.pkl", ⟨by decide, Or.inr ⟨cs!"/data", rfl⟩⟩, Or.inl ⟨cs!"pkl", by decide, rfl⟩⟩
  have hd : exFs.dirs = [[], [cs!"home"], [cs!"data"]] := rfl
  have hin : HoldsSpace L exFs cs!"/data/in.pkl" s := ⟨cs!"S", rfl, hu⟩
  obtain ⟨fs', h⟩ := C81_succeeds (outDir := cs!"/out/x") (gz := false) hb hs (.pickle hin) hin hp
    ⟨exFs_ok, by
      rw [exFs_keys]
      show ∀ f ∈ [[cs!"data", cs!"in.pkl"]], ¬ f <+: [cs!"out", cs!"x"]
      decide⟩ (by rw [hd]; decide)
  refine ⟨fs', h, ?_⟩
  obtain ⟨raw, c, q, k1, k2, k3, k4⟩ := C81_saves hb hs h
  have k1' := readInput_ok.2 k1
  rw [readInput_ok.2 (.pickle hin)] at k1'
  obtain rfl := ok_inj k1'
  have k2' := loadSpace_ok.2 k2
  rw [loadSpace_ok.2 hin] at k2'
  obtain rfl := ok_inj k2'
  unfold PeriphFrom at hp k3
  rw [hp] at k3
  obtain rfl := ok_inj k3
  exact k4.pickle

/-! ### C89: the two scripts together -/

theorem periph_with_dict {core p : Space Str} {m : TMat ℝ} {ws : List Str} {d : Dict Str ℤ}
    (h : Periph.new core m ws none = .ok p) (hd : Labels ws d) :
    Periph.new core m ws (some d) = .ok { p with row2id := d } := by
  obtain ⟨h1, h2, h3, h4, h5, h6, h7⟩ := periphNew_eq_ok h
  subst h3
  have hcheck : Space.shapeCheck p.mat p.id2row p.id2col d p.col2id = .ok () := by
    have hl := (Space.resolveMap_eq_ok h6).1
    have e : d.len = p.row2id.len := by rw [hd.len, hl.len]
    unfold Space.shapeCheck at h7 ⊢
    rw [e]
    exact h7
  rw [periphNew_ok h1 h2 (Space.resolveMap_some hd) hcheck, ← h4, ← h5]

/-- Projecting the raw space through the operations of a core space built from it without NMF gives the core space again. -/
theorem periph_of_core {L : Lib} {raw core : Space Str} {c : Choice} (hwf : raw.WF) (hops : raw.ops = [])
    (hr : 0 < raw.mat.nr) (hc : 0 < raw.mat.nc) (hres : c.Result L.env raw core)
    (hnmf : ∀ d, '_' ∉ d → c.r ≠ some (cs!"nmf_" ++ d))
    (hsvd : ∀ k ts s, RMeans c.r [.dimred (.svd k)] → raw.applyAll L.env ts = .ok s → SvdCallOk L.env s.mat k) :
    ∃ p, PeriphFrom raw core p ∧ p.id2row = core.id2row ∧ p.id2col = core.id2col ∧ p.mat = core.mat := by
  obtain ⟨a, b, d, e, m1, m2, m3, m4, happ⟩ := hres
  have hexact : ∀ t ∈ a ++ b ++ d ++ e, t.Exact := by
    intro t ht
    simp only [List.mem_append] at ht
    rcases ht with ((ht | ht) | ht) | ht
    · generalize c.w = x at m1
      cases m1 with
      | named _ => rw [List.mem_singleton] at ht; subst ht; trivial
      | skip _ => cases ht
    · generalize c.s = x at m2
      cases m2 with
      | named _ _ _ hk => rw [List.mem_singleton] at ht; subst ht; exact hk
      | skip _ => cases ht
    · generalize hrr : c.r = r at m3
      cases m3 with
      | svd _ _ hk => rw [List.mem_singleton] at ht; subst ht; exact hk
      | nmf ch hd _ _ => exact absurd hrr (hnmf _ hd)
      | skip _ => cases ht
    · generalize c.n = x at m4
      cases m4 with
      | named _ => rw [List.mem_singleton] at ht; subst ht; trivial
      | skip _ => cases ht
  have hsv : ∀ pre k post s, a ++ b ++ d ++ e = pre ++ .dimred (.svd k) :: post → raw.applyAll L.env pre = .ok s →
      SvdCallOk L.env s.mat k := by
    intro pre k post s hsplit hs
    refine hsvd k pre s ?_ hs
    have hmem : (Trans.dimred (.svd k)) ∈ a ++ b ++ d ++ e := by rw [hsplit]; simp
    simp only [List.mem_append] at hmem
    rcases hmem with ((ht | ht) | ht) | ht
    · generalize c.w = x at m1
      cases m1 with
      | named _ => rw [List.mem_singleton] at ht; cases ht
      | skip _ => cases ht
    · generalize c.s = x at m2
      cases m2 with
      | named _ _ _ hk => rw [List.mem_singleton] at ht; cases ht
      | skip _ => cases ht
    · generalize hrr : c.r = r at m3 ⊢
      cases m3 with
      | svd h1 h2 hk =>
        rw [List.mem_singleton] at ht
        injection ht with ht; injection ht with ht; subst ht
        exact .svd h1 h2 hk
      | nmf ch hd _ _ => exact absurd hrr (hnmf _ hd)
      | skip _ => cases ht
    · generalize c.n = x at m4
      cases m4 with
      | named _ => rw [List.mem_singleton] at ht; cases ht
      | skip _ => cases ht
  obtain ⟨q, q1, q2, q3, q4, q5, q6, q7, q8⟩ := C24_core_rows_reproduced L.env raw core _ hwf hops hr hc hexact hsv happ
    raw.mat.ty (List.range raw.mat.nr) (by simp; omega) (by simp) raw.id2row hwf.rows.nodup (by simp [hwf.nrows])
  have hmat : (⟨raw.mat.ty, raw.mat.val.selRows (List.range raw.mat.nr)⟩ : TMat ℝ) = raw.mat := by
    have : raw.mat.val.selRows (List.range raw.mat.nr) = raw.mat.val := by
      refine Mat.ext' (by simp [Mat.selRows, TMat.nr]) rfl (fun i j hi hj => ?_)
      have hi' : i < raw.mat.nr := by simpa [Mat.selRows] using hi
      exact Mat.selRows_get_some (List.getElem?_range hi') j
    rw [this]
  rw [hmat] at q1
  have := periph_with_dict q1 hwf.rows
  refine ⟨_, this, ?_⟩
  have hrows := (applyAll_rows happ).1
  have hcwf := (applyAll_rows happ).2.2 hwf
  refine ⟨q2.trans hrows.symm, q7, ?_⟩
  have hnr : core.mat.nr = raw.mat.nr := by rw [hcwf.nrows, hrows, hwf.nrows]
  have hv : q.mat.val = core.mat.val := by
    refine Mat.ext' (by show q.mat.nr = core.mat.nr; rw [q3, hnr]; simp) q4 (fun i j hi _ => ?_)
    have hi' : i < raw.mat.nr := by
      have : i < q.mat.nr := hi
      rw [q3] at this
      simpa using this
    exact q5 i i (List.getElem?_range hi') j
  show q.mat = core.mat
  cases hq : q.mat with
  | mk ty v =>
    cases hc2 : core.mat with
    | mk ty2 v2 =>
      have h6 := q6 rfl
      rw [hq, hc2] at h6 hv
      simp only at h6 hv
      rw [h6, hv]

/-- **C89** Running `build_core_space.py` and then `build_peripheral_space.py` on the same (unchanged) raw input and one of
the stored core spaces whose reduction is not NMF stores a peripheral space with exactly the rows, row labels, column
labels and values of the core space. The SVD back end must return singular triples for the calls made, and unpickling the
stored core space must give back what was pickled into it. -/
theorem C89_core_reproduced {L : Lib} {fs fs1 fs2 fs3 : Fs} {pre base fmt outDir : Str} {outFormat : Option Str}
    {ws ss rs ns : List (Option Str)} {gz : Bool} (hb : IsBase pre base)
    (hdoc : ∀ c, choices ws ss rs ns c → c.Documented)
    {raw : Space Str} (hin : InputSpace L fs pre gz fmt raw) (hwf : raw.WF) (hops : raw.ops = [])
    (hr : 0 < raw.mat.nr) (hc : 0 < raw.mat.nc)
    (h1 : buildSpaces L fs pre fmt outDir outFormat ws ss rs ns gz = .ok fs1)
    {c : Choice} (hcc : choices ws ss rs ns c)
    (hdump : ∀ o, fs1.read (coreFile outDir base c ++ cs!".pkl") = .ok (L.dump o) → L.undump (L.dump o) = some o)
    (hnmf : ∀ d, '_' ∉ d → c.r ≠ some (cs!"nmf_" ++ d))
    (hsvd : ∀ k ts s, RMeans c.r [.dimred (.svd k)] → raw.applyAll L.env ts = .ok s → SvdCallOk L.env s.mat k)
    (hin2 : InputSpace L fs2 pre gz fmt raw)
    (hcore2 : fs2.read (coreFile outDir base c ++ cs!".pkl") = fs1.read (coreFile outDir base c ++ cs!".pkl"))
    {outDir' st : Str} {outFormat' : Option Str} (hst : IsStem (coreFile outDir base c ++ cs!".pkl") st)
    (h2 : buildPeriph L fs2 pre fmt outDir' outFormat' (coreFile outDir base c ++ cs!".pkl") gz = .ok fs3) :
    ∃ core p, c.Result L.env raw core ∧ fs3.read (periphFile outDir' base st ++ cs!".pkl") = .ok (L.dump (.space p)) ∧
      p.id2row = core.id2row ∧ p.id2col = core.id2col ∧ p.mat = core.mat := by
  obtain ⟨raw', k1, k2⟩ := C67_every_combination hb hdoc h1
  have e1 := readInput_ok.2 k1
  rw [readInput_ok.2 hin] at e1
  obtain rfl := ok_inj e1
  obtain ⟨core, ⟨a, b, d, e, m1, m2, m3, m4, happ⟩, hh⟩ := k2 c hcc
  obtain ⟨raw'', core', p, j1, j2, j3, j4⟩ := C81_saves hb hst h2
  have e2 := readInput_ok.2 j1
  rw [readInput_ok.2 hin2] at e2
  obtain rfl := ok_inj e2
  obtain ⟨txt, t1, t2⟩ := j2
  rw [hcore2, hh.pickle] at t1
  obtain rfl := ok_inj t1
  rw [hdump _ hh.pickle] at t2
  injection t2 with t2
  injection t2 with t2
  subst t2
  obtain ⟨p', r1, r2⟩ := periph_of_core hwf hops hr hc ⟨a, b, d, e, m1, m2, m3, m4, happ⟩ hnmf hsvd
  unfold PeriphFrom at j3 r1
  rw [r1] at j3
  obtain rfl := ok_inj j3
  exact ⟨core, p', ⟨a, b, d, e, m1, m2, m3, m4, happ⟩, j4.pickle, r2⟩

end
end Dissect
