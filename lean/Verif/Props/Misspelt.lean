import Verif.Props.CoreSpace
import Verif.Props.BadLines

/-! # C164: operations that build_core_space does not know, and sizes that make no sense -/

namespace Dissect
noncomputable section

/-! ### Specification -/

/-- The part of an operation name behind the last underscore that is not a positive whole number. -/
def BadSize (d : Str) : Prop := '_' ∉ d ∧ ∀ n, IsWhole d n → n ≤ 0

/-- A documented feature selection with a size that makes no sense, such as `top_sum_0` or `top_length_x`. -/
def BadSelection (t : Option Str) : Prop := ∃ x ∈ selectionTable, ∃ d, BadSize d ∧ t = some (x.1 ++ d)

/-- A documented reduction with a size that makes no sense, such as `svd_-3` or `nmf_`. -/
def BadReduction (t : Option Str) : Prop := ∃ x ∈ [cs!"svd_", cs!"nmf_"], ∃ d, BadSize d ∧ t = some (x ++ d)

/-- None of the four options is a documented operation: absent, `none` or a name the script does not know. -/
structure Choice.Meaningless (c : Choice) : Prop where
  w : ∀ x ∈ weightingTable, c.w ≠ some x.1
  s : ∀ x ∈ selectionTable, ∀ d, '_' ∉ d → c.s ≠ some (x.1 ++ d)
  r : ∀ x ∈ [cs!"svd_", cs!"nmf_"], ∀ d, '_' ∉ d → c.r ≠ some (x ++ d)
  n : ∀ x ∈ normalizationTable, c.n ≠ some x.1

/-- No option contains a slash. -/
def Choice.NoSlash (c : Choice) : Prop := ∀ t ∈ [c.w, c.s, c.r, c.n], ∀ x, t = some x → '/' ∉ x

/-! ### Sizes -/

theorem size_error {d : Str} (h : BadSize d) : (do let i ← pyInt d; positiveDim i) = (.error .valueError : Py ℕ) := by
  obtain ⟨k1, k2⟩ := C132_whole_numbers (s := d)
  by_cases hw : ∃ n, IsWhole d n
  · obtain ⟨n, hn⟩ := hw
    rw [(k1 n).2 hn, ok_bind]
    unfold positiveDim
    rw [if_pos (h.2 n hn)]
  · rw [k2 (not_exists.1 hw)]
    rfl

theorem selection_error {t : Option Str} (h : BadSelection t) (env : Env) (s : Space Str) :
    applySelection env s t = .error .valueError := by
  obtain ⟨x, hx, d, hd, rfl⟩ := h
  obtain ⟨cr, h1, h2⟩ := sel_split hx hd.1
  have hne : x.1 ++ d ≠ cs!"none" := by
    simp only [selectionTable, List.mem_cons, List.not_mem_nil, or_false] at hx
    rcases hx with rfl | rfl <;> simp
  have he := size_error hd
  unfold applySelection
  simp only [if_neg hne, h1, ne_eq, not_true, if_false, h2]
  cases hp : pyInt d with
  | error e =>
    rw [hp] at he
    have : (.error e : Py ℕ) = .error .valueError := he
    injection this with this
    rw [this]
    rfl
  | ok i =>
    rw [hp, ok_bind] at he
    rw [ok_bind, he]
    rfl

theorem reduction_error {t : Option Str} (h : BadReduction t) (env : Env) (ch : Chance) (s : Space Str) :
    applyReduction env ch s t = .error .valueError := by
  obtain ⟨x, hx, d, hd, rfl⟩ := h
  obtain ⟨ty, h1, h2⟩ := red_split hx hd.1
  have hne : x ++ d ≠ cs!"none" := by
    simp only [List.mem_cons, List.not_mem_nil, or_false] at hx
    rcases hx with rfl | rfl <;> simp
  have hmk : ∃ mk, reductionOf ty ch = some mk := by
    rcases h2 with rfl | rfl
    · exact ⟨_, rfl⟩
    · exact ⟨fun k => .nmf k ch, by simp [reductionOf]⟩
  obtain ⟨mk, hmk⟩ := hmk
  have he := size_error hd
  unfold applyReduction
  simp only [if_neg hne, h1, hmk]
  cases hp : pyInt d with
  | error e =>
    rw [hp] at he
    have : (.error e : Py ℕ) = .error .valueError := he
    injection this with this
    rw [this]
    rfl
  | ok i =>
    rw [hp, ok_bind] at he
    rw [ok_bind, he]
    rfl

/-- **C164** (true part) A run in which some combination has a selection or reduction with a senseless size never
succeeds. -/
theorem C164_size_partial {L : Lib} {fs : Fs} {pre fmt outDir : Str} {outFormat : Option Str} {ws ss rs ns : List (Option Str)}
    {gz : Bool} (c : Choice) (hc : choices ws ss rs ns c) (hbad : BadSelection c.s ∨ BadReduction c.r) :
    ∃ e, buildSpaces L fs pre fmt outDir outFormat ws ss rs ns gz = .error e := by
  cases h : buildSpaces L fs pre fmt outDir outFormat ws ss rs ns gz with
  | error e => exact ⟨e, rfl⟩
  | ok fs' =>
    exfalso
    obtain ⟨input, _, js, hcov, _⟩ := buildSpaces_jobs h
    obtain ⟨j, _, _, a, b, d, e, _, hb, hd, _⟩ := hcov.2 c hc
    rcases hbad with ⟨x, hx, y, hy, he⟩ | ⟨x, hx, y, hy, he⟩
    · rw [he] at hb
      generalize hg : some (x.1 ++ y) = t at hb
      cases hb with
      | @named p d' cr k hp hd' hi hk =>
        injection hg with hg
        obtain ⟨_, e1, _⟩ := sel_split hx hy.1
        obtain ⟨_, e2, _⟩ := sel_split hp hd'
        simp only [] at e2
        rw [hg, e2] at e1
        injection e1 with _ e1
        injection e1 with _ e1
        injection e1 with e1
        subst e1
        have := hy.2 k ((C132_whole_numbers.1 _).1 hi)
        omega
      | skip hs => exact hs x hx y hy.1 hg.symm
    · rw [he] at hd
      generalize hg : some (x ++ y) = t at hd
      have key : ∀ (p d' : Str) (k : ℕ), p ∈ [cs!"svd_", cs!"nmf_"] → '_' ∉ d' → pyInt d' = .ok (k : ℤ) → 0 < k →
          x ++ y ≠ p ++ d' := by
        intro p d' k hp hd' hi hk hg
        obtain ⟨_, e1, _⟩ := red_split hx hy.1
        obtain ⟨_, e2, _⟩ := red_split hp hd'
        rw [hg, e2] at e1
        injection e1 with _ e1
        injection e1 with e1
        subst e1
        have := hy.2 k ((C132_whole_numbers.1 _).1 hi)
        omega
      cases hd with
      | svd h1 h2 h3 => exact key _ _ _ (by simp) h1 h2 h3 (Option.some.inj hg)
      | nmf _ h1 h2 h3 => exact key _ _ _ (by simp) h1 h2 h3 (Option.some.inj hg)
      | skip hs => exact hs x hx y hy.1 hg.symm

/-- **C164** (true part) The exception is `ValueError` when the senseless size belongs to the first combination and the
operations before it succeed. -/
theorem C164_size_error_partial {L : Lib} {fs : Fs} {pre fmt outDir : Str} {outFormat : Option Str} {w s r : Option Str}
    {ws ss rs ns : List (Option Str)} {gz : Bool} {input : Space Str} (hin : InputSpace L fs pre gz fmt input)
    (hw : NoneLike w ∨ ∃ a, a ≠ [] ∧ WMeans w a) (hwok : ∀ a, WMeans w a → ∃ x, input.applyAll L.env a = .ok x)
    (hbad : BadSelection s ∨ (BadReduction r ∧ (NoneLike s ∨ ∃ b, b ≠ [] ∧ SMeans s b) ∧
      ∀ a b, WMeans w a → SMeans s b → ∃ x, input.applyAll L.env (a ++ b) = .ok x)) :
    buildSpaces L fs pre fmt outDir outFormat (w :: ws) (s :: ss) (r :: rs) ns gz = .error .valueError := by
  obtain ⟨a, ha, ea⟩ := wdoc hw
  obtain ⟨x, hx⟩ := hwok a ha
  unfold buildSpaces
  rw [readInput_ok.2 hin, ok_bind]
  unfold forFs
  simp only [ea, hx, ok_bind]
  have hsel : selLoop L outDir outFormat (s :: ss) (r :: rs) ns (coreDescr pre) w 0 x fs = .error .valueError := by
    unfold selLoop forFs
    rcases hbad with hb | ⟨hb, hs, hok⟩
    · simp only [selection_error hb, error_bind]
    · obtain ⟨b, hb', eb⟩ := sdoc hs
      obtain ⟨y, hy⟩ := hok a b ha hb'
      rw [applyAll_append', hx, ok_bind] at hy
      have hred : redLoop L outDir outFormat (r :: rs) ns (coreDescr pre) w s 0 0 y fs = .error .valueError := by
        unfold redLoop forFs
        simp only [reduction_error hb, error_bind]
      simp only [eb, hy, ok_bind, hred, error_bind]
  rw [hsel, error_bind]

/-! ### Unknown names -/

theorem Choice.Meaningless.weighting {c : Choice} (h : c.Meaningless) (env : Env) (s : Space Str) :
    applyWeighting env s c.w = .ok s := by
  unfold applyWeighting
  cases hw : c.w with
  | none => rfl
  | some t =>
    simp only []
    split
    · rfl
    · cases ht : weightingOf t with
      | none => rfl
      | some sc => exact absurd hw (h.w _ (weightingOf_some ht))

theorem Choice.Meaningless.normalization {c : Choice} (h : c.Meaningless) (env : Env) (s : Space Str) :
    applyNormalization env s c.n = .ok s := by
  unfold applyNormalization
  cases hw : c.n with
  | none => rfl
  | some t =>
    simp only []
    split
    · rfl
    · cases ht : normalizationOf t with
      | none => rfl
      | some sc => exact absurd hw (h.n _ (normalizationOf_some ht))

theorem Choice.Meaningless.selection {c : Choice} (h : c.Meaningless) (env : Env) (s : Space Str) :
    applySelection env s c.s = .ok s := by
  unfold applySelection
  cases hw : c.s with
  | none => rfl
  | some t =>
    simp only []
    split
    · rfl
    · split
      · rename_i ty crit dim hs
        split
        · rfl
        · rename_i hty
          rw [not_not] at hty
          subst hty
          cases hc : critOf crit with
          | none => rfl
          | some cr =>
            obtain ⟨g1, _, _, g4⟩ := splitCh_eq_three hs
            exact absurd (hw.trans (by rw [g1]; simp)) (h.s _ (critOf_some hc) dim g4)
      · rfl

theorem Choice.Meaningless.reduction {c : Choice} (h : c.Meaningless) (env : Env) (ch : Chance) (s : Space Str) :
    applyReduction env ch s c.r = .ok s := by
  unfold applyReduction
  cases hw : c.r with
  | none => rfl
  | some t =>
    simp only []
    split
    · rfl
    · split
      · rename_i ty dim hs
        cases hc : reductionOf ty ch with
        | none => rfl
        | some mk =>
          obtain ⟨g1, _, g3⟩ := splitCh_eq_two hs
          exfalso
          unfold reductionOf at hc
          split at hc
          · rename_i ht
            subst ht
            exact h.r cs!"svd_" (by simp) dim g3 (hw.trans (by rw [g1]; simp))
          · split at hc
            · rename_i ht
              subst ht
              exact h.r cs!"nmf_" (by simp) dim g3 (hw.trans (by rw [g1]; simp))
            · cases hc
      · rfl

theorem dotted_noslash {c : Choice} (h : c.NoSlash) :
    '/' ∉ dotted c.w ++ dotted c.s ++ dotted c.r ++ dotted c.n := by
  have key : ∀ t ∈ [c.w, c.s, c.r, c.n], '/' ∉ dotted t := by
    intro t ht hm
    unfold dotted at hm
    cases ht' : t with
    | none => rw [ht'] at hm; simp at hm
    | some x =>
      rw [ht'] at hm
      simp only [] at hm
      split at hm
      · simp at hm
      · rcases List.mem_cons.1 hm with hm | hm
        · exact absurd hm (by decide)
        · exact h t ht x ht' hm
  simp only [List.mem_append, not_or]
  exact ⟨⟨⟨key _ (by simp), key _ (by simp)⟩, key _ (by simp)⟩, key _ (by simp)⟩

/-- **C164** is false: a run with names the script does not know succeeds whenever the input can be read and the output
file can be written; the file that carries these names holds the input space, unchanged. -/
theorem C164_refuted {L : Lib} {fs : Fs} {pre base fmt outDir : Str} {gz : Bool} (hb : IsBase pre base) (c : Choice)
    (hc : c.Meaningless) (hslash : c.NoSlash) {input : Space Str} (hin : InputSpace L fs pre gz fmt input)
    (hout : OutDir fs (fs.resolve (outDir ++ ['/']))) (hnodir : fs.resolve (coreFile outDir base c ++ cs!".pkl") ∉ fs.dirs) :
    ∃ fs', buildSpaces L fs pre fmt outDir none [c.w] [c.s] [c.r] [c.n] gz = .ok fs' ∧
      fs'.read (coreFile outDir base c ++ cs!".pkl") = .ok (L.dump (.space input)) := by
  have hfile : spaceFile outDir [some (coreDescr pre), c.w, c.s, c.r, c.n] = coreFile outDir base c := choiceFile_eq hb c
  have hnm : coreFile outDir base c ++ cs!".pkl" =
      outDir ++ '/' :: (cs!"CORE_SS." ++ base ++ (dotted c.w ++ dotted c.s ++ dotted c.r ++ dotted c.n) ++ cs!".pkl") := by
    unfold coreFile; simp
  have hns : '/' ∉ cs!"CORE_SS." ++ base ++ (dotted c.w ++ dotted c.s ++ dotted c.r ++ dotted c.n) ++ cs!".pkl" := by
    have h1 := dotted_noslash hslash
    intro hm
    rcases List.mem_append.1 hm with hm | hm
    · rcases List.mem_append.1 hm with hm | hm
      · rcases List.mem_append.1 hm with hm | hm
        · revert hm; decide
        · exact hb.1 hm
      · exact h1 hm
    · revert hm; decide
  obtain ⟨fs', k1, _⟩ := OutDir.save (fs := fs) (c := L.dump (.space input)) hout hns (by simp) (by simp)
    (by rw [← hnm]; exact hnodir)
  have hrun : buildSpaces L fs pre fmt outDir none [c.w] [c.s] [c.r] [c.n] gz = .ok fs' := by
    unfold buildSpaces
    rw [readInput_ok.2 hin, ok_bind]
    simp only [forFs, hc.weighting, ok_bind, selLoop, hc.selection, redLoop, hc.reduction, normLoop, hc.normalization]
    unfold printSpace
    rw [hfile, hnm, k1]
    rfl
  refine ⟨fs', hrun, ?_⟩
  obtain ⟨input', h1, h2⟩ := C67_any_options hb hrun
  have := (readInput_ok.2 h1).symm.trans (readInput_ok.2 hin)
  obtain rfl := ok_inj this
  obtain ⟨d, res, ⟨d1, d2, d3, d4⟩, ⟨a, b, r, e, ha, hb', hr, he, hres⟩, _, h5⟩ := h2 c ⟨by simp, by simp, by simp, by simp⟩
  rw [List.mem_singleton] at d1 d2 d3 d4
  rw [d1] at ha
  rw [d2] at hb'
  rw [d3] at hr
  rw [d4] at he
  rw [h5]
  have ea : a = [] := by
    generalize hg : c.w = t at ha
    cases ha with
    | named hm => exact absurd hg (hc.w _ hm)
    | skip _ => rfl
  have eb : b = [] := by
    generalize hg : c.s = t at hb'
    cases hb' with
    | named hm h1 => exact absurd hg (hc.s _ hm _ h1)
    | skip _ => rfl
  have er : r = [] := by
    generalize hg : c.r = t at hr
    cases hr with
    | svd h1 => exact absurd hg (hc.r _ (by simp) _ h1)
    | nmf _ h1 => exact absurd hg (hc.r _ (by simp) _ h1)
    | skip _ => rfl
  have ee : e = [] := by
    generalize hg : c.n = t at he
    cases he with
    | named hm => exact absurd hg (hc.n _ hm)
    | skip _ => rfl
  subst ea eb er ee
  obtain rfl := ok_inj hres
  rfl

end
end Dissect
