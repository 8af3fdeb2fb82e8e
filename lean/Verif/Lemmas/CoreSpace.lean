import Verif.Lemmas.Jobs
import Verif.Lemmas.SplitCh
import Verif.Lemmas.Periph
import Verif.Spec.Pipeline

/-! Lemmas for `build_core_space.py`. -/

namespace Dissect
noncomputable section

theorem applyAll_single (env : Env) (s : Space Str) (t : Trans) : s.applyAll env [t] = s.apply env t := by
  simp only [Space.applyAll]
  cases s.apply env t <;> rfl

theorem applyAll_append' (env : Env) (a b : List Trans) : ∀ (s : Space Str),
    s.applyAll env (a ++ b) = s.applyAll env a >>= fun s' => s'.applyAll env b := by
  induction a with
  | nil => intro s; rfl
  | cons t ts ih =>
    intro s
    simp only [List.cons_append, Space.applyAll]
    cases s.apply env t with
    | error e => rfl
    | ok s' => simp only [ok_bind]; exact ih s'

theorem weightingOf_some {t : Str} {sc : ScalingT} (h : weightingOf t = some sc) : (t, sc) ∈ weightingTable := by
  unfold weightingOf at h
  repeat' split at h
  all_goals first
    | (injection h with h; subst h; subst t; decide)
    | cases h

theorem weightingOf_none {t : Str} (h : weightingOf t = none) : ∀ x ∈ weightingTable, some t ≠ some x.1 := by
  unfold weightingOf at h
  intro x hx he
  injection he with he
  subst he
  revert h
  revert x
  decide

theorem applyWeighting_means {env : Env} {s s' : Space Str} {w : Option Str} (h : applyWeighting env s w = .ok s') :
    ∃ a, WMeans w a ∧ s.applyAll env a = .ok s' := by
  unfold applyWeighting at h
  cases w with
  | none => exact ⟨[], .skip (by simp), h⟩
  | some t =>
    simp only [] at h
    split at h
    · rename_i ht
      subst ht
      exact ⟨[], .skip (by decide), h⟩
    · split at h
      · rename_i hw
        exact ⟨[], .skip (weightingOf_none hw), h⟩
      · rename_i sc hw
        exact ⟨_, .named (weightingOf_some hw), by rw [applyAll_single]; exact h⟩

theorem normalizationOf_some {t : Str} {sc : ScalingT} (h : normalizationOf t = some sc) :
    (t, sc) ∈ normalizationTable := by
  unfold normalizationOf at h
  repeat' split at h
  all_goals first
    | (injection h with h; subst h; subst t; decide)
    | cases h

theorem normalizationOf_none {t : Str} (h : normalizationOf t = none) : ∀ x ∈ normalizationTable, some t ≠ some x.1 := by
  unfold normalizationOf at h
  intro x hx he
  injection he with he
  subst he
  revert h
  revert x
  decide

theorem applyNormalization_means {env : Env} {s s' : Space Str} {w : Option Str}
    (h : applyNormalization env s w = .ok s') : ∃ a, NMeans w a ∧ s.applyAll env a = .ok s' := by
  unfold applyNormalization at h
  cases w with
  | none => exact ⟨[], .skip (by simp), h⟩
  | some t =>
    simp only [] at h
    split at h
    · rename_i ht
      subst ht
      exact ⟨[], .skip (by decide), h⟩
    · split at h
      · rename_i hw
        exact ⟨[], .skip (normalizationOf_none hw), h⟩
      · rename_i sc hw
        exact ⟨_, .named (normalizationOf_some hw), by rw [applyAll_single]; exact h⟩

theorem positiveDim_ok {i : ℤ} {k : ℕ} (h : positiveDim i = .ok k) : i = (k : ℤ) ∧ 0 < k := by
  unfold positiveDim at h
  split at h
  · cases h
  · injection h with h; omega

/-- A name with a separator and a piece without it. -/
theorem splitCh_name (c : Char) (p : Str) {d : Str} (hd : c ∉ d) : splitCh c (p ++ [c] ++ d) = splitCh c p ++ [d] := by
  rw [show p ++ [c] ++ d = p ++ c :: d by simp, splitCh_sep, splitCh_noc hd]

theorem critOf_some {cr : Str} {c : Crit} (h : critOf cr = some c) : (cs!"top_" ++ cr ++ ['_'], c) ∈ selectionTable := by
  unfold critOf at h
  split at h
  · rename_i hc
    subst hc
    injection h with h; subst h; decide
  · split at h
    · rename_i hc
      subst hc
      injection h with h; subst h; decide
    · cases h

theorem sel_split {x : Str × Crit} (hx : x ∈ selectionTable) {d : Str} (hd : '_' ∉ d) :
    ∃ cr, splitCh '_' (x.1 ++ d) = [cs!"top", cr, d] ∧ critOf cr = some x.2 := by
  simp only [selectionTable, List.mem_cons, List.not_mem_nil, or_false] at hx
  rcases hx with rfl | rfl
  · refine ⟨cs!"sum", ?_, rfl⟩
    have := splitCh_name '_' cs!"top_sum" hd
    simpa [splitCh, splitChAux] using this
  · refine ⟨cs!"length", ?_, rfl⟩
    have := splitCh_name '_' cs!"top_length" hd
    simpa [splitCh, splitChAux] using this

theorem sel_skip {t : Str} (h : ∀ cr c d, splitCh '_' t = [cs!"top", cr, d] → critOf cr ≠ some c) : SMeans (some t) [] := by
  refine .skip (fun x hx d hd he => ?_)
  injection he with he
  obtain ⟨cr, h1, h2⟩ := sel_split hx hd
  rw [← he] at h1
  exact h cr _ d h1 h2

theorem applySelection_means {env : Env} {s s' : Space Str} {w : Option Str}
    (h : applySelection env s w = .ok s') : ∃ a, SMeans w a ∧ s.applyAll env a = .ok s' := by
  unfold applySelection at h
  cases w with
  | none => exact ⟨[], .skip (by simp), h⟩
  | some t =>
    simp only [] at h
    split at h
    · rename_i ht
      subst ht
      refine ⟨[], sel_skip (fun cr c d hs => ?_), h⟩
      revert hs; simp [splitCh, splitChAux]
    · split at h
      · rename_i ty crit dim hs
        split at h
        · rename_i hty
          refine ⟨[], sel_skip (fun cr c d hs' => ?_), h⟩
          rw [hs] at hs'
          injection hs' with h1
          exact absurd h1 hty
        · rename_i hty
          rw [not_not] at hty
          subst hty
          split at h
          · rename_i hc
            refine ⟨[], sel_skip (fun cr c d hs' => ?_), h⟩
            rw [hs] at hs'
            injection hs' with h1 h2
            injection h2 with h2
            rw [← h2, hc]; simp
          · rename_i c hc
            simp only [bind_eq_ok] at h
            obtain ⟨i, hi, k, hk, h⟩ := h
            obtain ⟨rfl, hk0⟩ := positiveDim_ok hk
            obtain ⟨g1, g2, g3, g4⟩ := splitCh_eq_three hs
            refine ⟨[.featsel k c], ?_, by rw [applyAll_single]; exact h⟩
            have := SMeans.named (critOf_some hc) g4 hi hk0
            rw [g1]
            simpa using this
      · rename_i hne
        refine ⟨[], sel_skip (fun cr c d hs' => ?_), h⟩
        exact absurd hs' (hne _ _ _)

theorem red_split {x : Str} (hx : x ∈ [cs!"svd_", cs!"nmf_"]) {d : Str} (hd : '_' ∉ d) :
    ∃ ty, splitCh '_' (x ++ d) = [ty, d] ∧ (ty = cs!"svd" ∨ ty = cs!"nmf") := by
  simp only [List.mem_cons, List.not_mem_nil, or_false] at hx
  rcases hx with rfl | rfl
  · refine ⟨cs!"svd", ?_, Or.inl rfl⟩
    have := splitCh_name '_' cs!"svd" hd
    simpa [splitCh, splitChAux] using this
  · refine ⟨cs!"nmf", ?_, Or.inr rfl⟩
    have := splitCh_name '_' cs!"nmf" hd
    simpa [splitCh, splitChAux] using this

theorem red_skip {t : Str} (h : ∀ ty d, splitCh '_' t = [ty, d] → ¬ (ty = cs!"svd" ∨ ty = cs!"nmf")) :
    RMeans (some t) [] := by
  refine .skip (fun x hx d hd he => ?_)
  injection he with he
  obtain ⟨cr, h1, h2⟩ := red_split hx hd
  rw [← he] at h1
  exact h cr _ h1 h2

theorem applyReduction_means {env : Env} {ch : Chance} {s s' : Space Str} {w : Option Str}
    (h : applyReduction env ch s w = .ok s') : ∃ a, RMeans w a ∧ s.applyAll env a = .ok s' := by
  unfold applyReduction at h
  cases w with
  | none => exact ⟨[], .skip (by simp), h⟩
  | some t =>
    simp only [] at h
    split at h
    · rename_i ht
      subst ht
      refine ⟨[], red_skip (fun cr d hs => ?_), h⟩
      revert hs; simp [splitCh, splitChAux]
    · split at h
      · rename_i ty dim hs
        split at h
        · rename_i hr
          refine ⟨[], red_skip (fun cr d hs' hor => ?_), h⟩
          rw [hs] at hs'
          injection hs' with h1
          subst h1
          rcases hor with rfl | rfl
          · revert hr; simp [reductionOf]
          · revert hr; simp [reductionOf]
        · rename_i mk hr
          simp only [bind_eq_ok] at h
          obtain ⟨i, hi, k, hk, h⟩ := h
          obtain ⟨rfl, hk0⟩ := positiveDim_ok hk
          obtain ⟨g1, g2, g3⟩ := splitCh_eq_two hs
          refine ⟨[.dimred (mk k)], ?_, by rw [applyAll_single]; exact h⟩
          unfold reductionOf at hr
          split at hr
          · rename_i ht
            injection hr with hr
            subst hr; subst ht
            have := RMeans.svd g3 hi hk0
            rw [g1]; simpa using this
          · split at hr
            · rename_i ht
              injection hr with hr
              subst hr; subst ht
              have := RMeans.nmf ch g3 hi hk0
              rw [g1]; simpa using this
            · cases hr
      · rename_i hne
        refine ⟨[], red_skip (fun cr d hs' => ?_), h⟩
        exact absurd hs' (hne _ _)

/-! ### The nested loops as a list of jobs -/

/-- The jobs cover exactly the choices of `dom`, each with a result satisfying `R`. -/
def Covers (file : Choice → Str) (R : Choice → Space Str → Prop) (dom : Choice → Prop) (js : List (Str × Space Str)) :
    Prop :=
  (∀ j ∈ js, ∃ c, dom c ∧ j.1 = file c ∧ R c j.2) ∧ ∀ c, dom c → ∃ j ∈ js, j.1 = file c ∧ R c j.2

theorem forFs_covers {α : Type} {L : Lib} {fmt : Option Str} {f : ℕ → α → Fs → Py Fs} {file : Choice → Str}
    {R : Choice → Space Str → Prop} {dom : α → Choice → Prop}
    (hstep : ∀ i x fs fs', f i x fs = .ok fs' → ∃ js, Covers file R (dom x) js ∧ runJobs L fmt js fs = .ok fs') :
    ∀ (xs : List α) (i : ℕ) (fs fs' : Fs), forFs f i xs fs = .ok fs' →
      ∃ js, Covers file R (fun c => ∃ x ∈ xs, dom x c) js ∧ runJobs L fmt js fs = .ok fs' := by
  intro xs
  induction xs with
  | nil =>
    intro i fs fs' h
    exact ⟨[], ⟨by simp, fun c ⟨x, hx, _⟩ => by cases hx⟩, h⟩
  | cons x xs ih =>
    intro i fs fs' h
    simp only [forFs, bind_eq_ok] at h
    obtain ⟨fs1, h1, h2⟩ := h
    obtain ⟨js1, c1, r1⟩ := hstep i x fs fs1 h1
    obtain ⟨js2, c2, r2⟩ := ih (i + 1) fs1 fs' h2
    refine ⟨js1 ++ js2, ⟨fun j hj => ?_, fun c hc => ?_⟩, ?_⟩
    · rcases List.mem_append.1 hj with hj | hj
      · obtain ⟨c, hd, he⟩ := c1.1 j hj
        exact ⟨c, ⟨x, by simp, hd⟩, he⟩
      · obtain ⟨c, ⟨y, hy, hd⟩, he⟩ := c2.1 j hj
        exact ⟨c, ⟨y, by simp [hy], hd⟩, he⟩
    · obtain ⟨y, hy, hd⟩ := hc
      rcases List.mem_cons.1 hy with rfl | hy
      · obtain ⟨j, hj, he⟩ := c1.2 c hd
        exact ⟨j, by simp [hj], he⟩
      · obtain ⟨j, hj, he⟩ := c2.2 c ⟨y, hy, hd⟩
        exact ⟨j, by simp [hj], he⟩
    · rw [runJobs_append, r1]; exact r2

/-- The file of a choice, as the script computes it. -/
def choiceFile (outDir descr : Str) (c : Choice) : Str := spaceFile outDir [some descr, c.w, c.s, c.r, c.n]

theorem normLoop_jobs {L : Lib} {outDir descr : Str} {fmt : Option Str} {ns : List (Option Str)} {w s r : Option Str}
    {input rSpace : Space Str} {a b d : List Trans} (ha : WMeans w a) (hb : SMeans s b) (hd : RMeans r d)
    (hin : input.applyAll L.env (a ++ b ++ d) = .ok rSpace) {fs fs' : Fs}
    (h : normLoop L outDir fmt ns descr w s r rSpace fs = .ok fs') :
    ∃ js, Covers (choiceFile outDir descr) (Choice.Result L.env input) (fun c => ∃ n ∈ ns, c = ⟨w, s, r, n⟩) js ∧
      runJobs L fmt js fs = .ok fs' := by
  refine forFs_covers (dom := fun n c => c = ⟨w, s, r, n⟩) ?_ ns 0 fs fs' h
  intro i n fs fs' h
  simp only [bind_eq_ok] at h
  obtain ⟨nSpace, h1, h2⟩ := h
  obtain ⟨e, he, hap⟩ := applyNormalization_means h1
  have hres : Choice.Result L.env input ⟨w, s, r, n⟩ nSpace :=
    ⟨a, b, d, e, ha, hb, hd, he, by rw [applyAll_append', hin]; exact hap⟩
  refine ⟨[(choiceFile outDir descr ⟨w, s, r, n⟩, nSpace)], ⟨?_, ?_⟩, ?_⟩
  · intro j hj
    simp only [List.mem_singleton] at hj
    subst hj
    exact ⟨_, rfl, rfl, hres⟩
  · rintro c rfl
    exact ⟨_, List.mem_singleton.2 rfl, rfl, hres⟩
  · rw [printSpace_eq] at h2
    simp only [runJobs, choiceFile, h2, ok_bind]

theorem redLoop_jobs {L : Lib} {outDir descr : Str} {fmt : Option Str} {rs ns : List (Option Str)} {w s : Option Str}
    {input sSpace : Space Str} {a b : List Trans} (ha : WMeans w a) (hb : SMeans s b)
    (hin : input.applyAll L.env (a ++ b) = .ok sSpace) {i j : ℕ} {fs fs' : Fs}
    (h : redLoop L outDir fmt rs ns descr w s i j sSpace fs = .ok fs') :
    ∃ js, Covers (choiceFile outDir descr) (Choice.Result L.env input)
        (fun c => ∃ r ∈ rs, ∃ n ∈ ns, c = ⟨w, s, r, n⟩) js ∧ runJobs L fmt js fs = .ok fs' := by
  refine forFs_covers (dom := fun r c => ∃ n ∈ ns, c = ⟨w, s, r, n⟩) ?_ rs 0 fs fs' h
  intro k r fs fs' h
  simp only [bind_eq_ok] at h
  obtain ⟨rSpace, h1, h2⟩ := h
  obtain ⟨d, hd, hap⟩ := applyReduction_means h1
  exact normLoop_jobs ha hb hd (by rw [applyAll_append', hin]; exact hap) h2

theorem selLoop_jobs {L : Lib} {outDir descr : Str} {fmt : Option Str} {ss rs ns : List (Option Str)} {w : Option Str}
    {input wSpace : Space Str} {a : List Trans} (ha : WMeans w a)
    (hin : input.applyAll L.env a = .ok wSpace) {i : ℕ} {fs fs' : Fs}
    (h : selLoop L outDir fmt ss rs ns descr w i wSpace fs = .ok fs') :
    ∃ js, Covers (choiceFile outDir descr) (Choice.Result L.env input)
        (fun c => ∃ s ∈ ss, ∃ r ∈ rs, ∃ n ∈ ns, c = ⟨w, s, r, n⟩) js ∧ runJobs L fmt js fs = .ok fs' := by
  refine forFs_covers (dom := fun s c => ∃ r ∈ rs, ∃ n ∈ ns, c = ⟨w, s, r, n⟩) ?_ ss 0 fs fs' h
  intro k s fs fs' h
  simp only [bind_eq_ok] at h
  obtain ⟨sSpace, h1, h2⟩ := h
  obtain ⟨b, hb, hap⟩ := applySelection_means h1
  exact redLoop_jobs ha hb (by rw [applyAll_append', hin]; exact hap) h2

theorem buildSpaces_jobs {L : Lib} {fs fs' : Fs} {pre fmt outDir : Str} {outFormat : Option Str}
    {ws ss rs ns : List (Option Str)} {gz : Bool}
    (h : buildSpaces L fs pre fmt outDir outFormat ws ss rs ns gz = .ok fs') :
    ∃ input, readInput L fs pre fmt gz = .ok input ∧
      ∃ js, Covers (choiceFile outDir (coreDescr pre)) (Choice.Result L.env input) (choices ws ss rs ns) js ∧
        runJobs L outFormat js fs = .ok fs' := by
  simp only [buildSpaces, bind_eq_ok] at h
  obtain ⟨input, h1, h2⟩ := h
  refine ⟨input, h1, ?_⟩
  obtain ⟨js, hc, hr⟩ := forFs_covers (L := L) (fmt := outFormat) (file := choiceFile outDir (coreDescr pre))
    (R := Choice.Result L.env input)
    (dom := fun w c => ∃ s ∈ ss, ∃ r ∈ rs, ∃ n ∈ ns, c = ⟨w, s, r, n⟩) (by
      intro i w fs fs' h
      simp only [bind_eq_ok] at h
      obtain ⟨wSpace, g1, g2⟩ := h
      obtain ⟨a, ha, hap⟩ := applyWeighting_means g1
      exact selLoop_jobs ha hap g2) ws 0 fs fs' h2
  refine ⟨js, ⟨fun j hj => ?_, fun c hc' => ?_⟩, hr⟩
  · obtain ⟨c, ⟨w, hw, s, hs, r, hr, n, hn, rfl⟩, he⟩ := hc.1 j hj
    exact ⟨_, ⟨hw, hs, hr, hn⟩, he⟩
  · exact hc.2 c ⟨c.w, hc'.1, c.s, hc'.2.1, c.r, hc'.2.2.1, c.n, hc'.2.2.2, rfl⟩

end
end Dissect
