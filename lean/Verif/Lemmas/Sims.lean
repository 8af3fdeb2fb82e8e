import Verif.Spec.Sims
import Verif.Lemmas.Main
import Verif.Lemmas.FsOut
import Verif.Lemmas.CoreNames

/-! Lemmas: `compute_similarities.py`, `compute_neighbours.py`. -/

namespace Dissect
noncomputable section

/-- Exactly one file has been written. -/
def Wrote (fs fs' : Fs) (p c : Str) : Prop :=
  fs'.cwd = fs.cwd ∧ ∀ x, fs'.files.get? x = if x = fs.resolve p then some c else fs.files.get? x

theorem Wrote.other {fs fs' : Fs} {p c q : Str} (h : Wrote fs fs' p c) (hq : fs.resolve q ≠ fs.resolve p) :
    fs'.read q = fs.read q :=
  read_congr h.1 (by rw [h.2, if_neg hq])

theorem Wrote.same {fs fs' : Fs} {p c q : Str} (h : Wrote fs fs' p c) (hq : fs.resolve q = fs.resolve p) (hne : q ≠ []) :
    fs'.read q = .ok c :=
  Fs.read_eq hne (by rw [Fs.resolve_cwd h.1, h.2, if_pos hq])

/-! ### Names -/

theorem joinStr_concat {e : Str} : ∀ {l : List Str}, l ≠ [] → joinStr ['.'] (l ++ [e]) = joinStr ['.'] l ++ '.' :: e := by
  intro l
  induction l with
  | nil => intro h; exact absurd rfl h
  | cons x xs ih =>
    intro _
    by_cases hx : xs = []
    · subst hx; simp [joinStr]
    · rw [List.cons_append, joinStr_cons _ _ (by simp), joinStr_cons _ _ hx, ih hx]
      simp

theorem stem_spec (f : Str) : IsStem f (stem f) := by
  refine ⟨lastComp f, lastComp_isBase f, ?_⟩
  unfold stem
  generalize lastComp f = b
  have hj := joinStr_splitCh '.' b
  have hp := fun p (h : p ∈ splitCh '.' b) => splitCh_pieces h
  generalize splitCh '.' b = l at hj hp
  cases l using List.reverseRecOn with
  | nil => right; simp [joinStr] at hj ⊢; simp [hj]
  | append_singleton l e =>
    rw [List.dropLast_concat]
    have he := hp e (by simp)
    by_cases hl : l = []
    · subst hl
      right
      simp [joinStr] at hj
      subst hj
      exact ⟨he, rfl⟩
    · left
      refine ⟨e, he, ?_⟩
      rw [← hj, joinStr_concat hl]

theorem isBase_unique {p a b : Str} (ha : IsBase p a) (hb : IsBase p b) : a = b := by
  rw [← lastComp_of_base ha, ← lastComp_of_base hb]

theorem isStem_unique {f s t : Str} (hs : IsStem f s) (ht : IsStem f t) : s = t := by
  obtain ⟨b, h1, h2⟩ := hs
  obtain ⟨b', h1', h2'⟩ := ht
  obtain rfl := isBase_unique h1 h1'
  rcases h2 with ⟨e, he, rfl⟩ | ⟨h2, rfl⟩ <;> rcases h2' with ⟨e', he', h⟩ | ⟨h2', rfl⟩
  · exact (dot_split he he' (by simpa using h)).1
  · simp at h2'
  · subst h; simp at h2
  · rfl

theorem stem_eq {f s : Str} (h : IsStem f s) : stem f = s := isStem_unique (stem_spec f) h

theorem stem_noslash {f s : Str} (h : IsStem f s) : '/' ∉ s := by
  obtain ⟨b, ⟨hb, _⟩, ⟨e, _, rfl⟩ | ⟨_, rfl⟩⟩ := h
  · intro hm; exact hb (by simp [hm])
  · simp

theorem spacesDescr_eq {files : List Str} {d : Str} (h : SpacesName files d) : spacesDescr files = d ∧ '/' ∉ d := by
  cases h with
  | @one f s gs hl hs =>
    refine ⟨?_, stem_noslash hs⟩
    match gs, hl with
    | [], _ => exact stem_eq hs
    | [g], hl => simp at hl
    | _ :: _ :: _, _ => exact stem_eq hs
  | @two f g s t ext base hs hg he hb =>
    have ht : IsStem g t := ⟨base, hg, Or.inl ⟨ext, he, hb⟩⟩
    refine ⟨?_, ?_⟩
    · have h1 : (splitCh '.' (lastComp g)).dropLast ≠ [] := by
        rw [lastComp_of_base hg, hb, splitCh_sep, splitCh_noc he, List.dropLast_concat]
        exact splitCh_ne_nil _ _
      show joinStr ['.'] (stem f :: (splitCh '.' (lastComp g)).dropLast) = _
      rw [joinStr_cons _ _ h1, stem_eq hs]
      have := stem_eq ht
      unfold stem at this
      rw [this]; simp
    · have := stem_noslash hs
      have := stem_noslash ht
      simp_all
  | @twoBare f g s base hs hg hb =>
    refine ⟨?_, stem_noslash hs⟩
    show joinStr ['.'] (stem f :: (splitCh '.' (lastComp g)).dropLast) = _
    rw [lastComp_of_base hg, splitCh_noc hb]
    simp [joinStr, stem_eq hs]

theorem simOf_eq {m : Str} {sim : Sim} : simOf m = some sim ↔ (m, sim) ∈ measureTable := by
  unfold simOf measureTable
  simp only [List.mem_cons, Prod.mk.injEq, List.not_mem_nil, or_false]
  constructor
  · intro h
    split at h
    · injection h with h; simp [*]
    · split at h
      · injection h with h; simp [*]
      · split at h
        · injection h with h; simp [*]
        · split at h
          · injection h with h; simp [*]
          · cases h
  · rintro (⟨rfl, rfl⟩ | ⟨rfl, rfl⟩ | ⟨rfl, rfl⟩ | ⟨rfl, rfl⟩) <;> decide

theorem simOf_none {m : Str} : simOf m = none ↔ ∀ sim, (m, sim) ∉ measureTable := by
  constructor
  · intro h sim hm
    rw [simOf_eq.2 hm] at h; cases h
  · intro h
    cases hs : simOf m with
    | none => rfl
    | some sim => exact absurd (simOf_eq.1 hs) (h sim)

theorem measure_chars {m : Str} {sim : Sim} (h : (m, sim) ∈ measureTable) : '/' ∉ m ∧ '.' ∉ m ∧ m ≠ [] := by
  unfold measureTable at h
  simp only [List.mem_cons, Prod.mk.injEq, List.not_mem_nil, or_false] at h
  rcases h with ⟨rfl, _⟩ | ⟨rfl, _⟩ | ⟨rfl, _⟩ | ⟨rfl, _⟩ <;> decide

theorem simsFile_eq (outDir base d m : Str) : simsFile outDir base d m =
    outDir ++ '/' :: (cs!"SIMS." ++ base ++ ['.'] ++ d ++ ['.'] ++ m) := by
  simp [simsFile]

theorem neighboursFile_eq (outDir base d m : Str) : neighboursFile outDir base d m =
    outDir ++ '/' :: (cs!"NEIGHBOURS." ++ base ++ ['.'] ++ d ++ ['.'] ++ m) := by
  simp [neighboursFile]

/-- The node of a file given by its directory and name. -/
theorem resolve_base (fs : Fs) {p base : Str} (hb : IsBase p base) (hn : IsFileName base) :
    ∃ dir, fs.resolve p = dir ++ [base] := by
  obtain ⟨hs, rfl | ⟨d, rfl⟩⟩ := hb
  · have := pathComps_noslash hs
    rw [if_neg (by rintro (h | h); exacts [hn.1 h, hn.2 h])] at this
    unfold Fs.resolve
    rw [this]
    split
    · exact ⟨[], rfl⟩
    · exact ⟨_, rfl⟩
  · exact ⟨_, resolve_in fs d hs hn.1 hn.2⟩

theorem resolve_longer (fs : Fs) {p base nm o : Str} (hb : IsBase p base) (hn : IsFileName base) (hs : '/' ∉ nm)
    (hlen : base.length < nm.length) (h2 : nm ≠ ['.']) : fs.resolve p ≠ fs.resolve (o ++ '/' :: nm) := by
  obtain ⟨d, hd⟩ := resolve_base fs hb hn
  rw [hd, resolve_in fs o hs (by rintro rfl; simp at hlen) h2]
  intro h
  have := (List.append_inj' h rfl).2
  simp at this
  subst this
  exact absurd hlen (lt_irrefl _)

/-! ### One output file -/

/-- A generic loop: an invariant and facts that, once established, persist. -/
theorem forFs_inv {α : Type} {f : ℕ → α → Fs → Py Fs} {I : Fs → Prop} {D : α → Fs → Prop} {S : α → Prop} :
    ∀ (xs : List α) (i : ℕ) {fs fs' : Fs},
      (∀ x ∈ xs, S x) →
      (∀ i x fs fs', S x → I fs → f i x fs = .ok fs' → I fs' ∧ D x fs' ∧ ∀ y, S y → D y fs → D y fs') →
      I fs → forFs f i xs fs = .ok fs' → I fs' ∧ (∀ x ∈ xs, D x fs') ∧ ∀ y, S y → D y fs → D y fs' := by
  intro xs
  induction xs with
  | nil =>
    intro i fs fs' _ _ hI h
    obtain rfl := ok_inj (show (.ok fs : Py Fs) = .ok fs' from h)
    exact ⟨hI, by simp, fun _ _ h => h⟩
  | cons x xs ih =>
    intro i fs fs' hS hstep hI h
    simp only [forFs, bind_eq_ok] at h
    obtain ⟨fs1, h1, h2⟩ := h
    obtain ⟨a, b, c⟩ := hstep i x fs fs1 (hS x (by simp)) hI h1
    obtain ⟨a', b', c'⟩ := ih (i + 1) (fun y hy => hS y (by simp [hy])) hstep a h2
    refine ⟨a', ?_, fun y hy hd => c' y hy (c y hy hd)⟩
    intro y hy
    rcases List.mem_cons.1 hy with rfl | hy
    · exact c' _ (hS _ (by simp)) b
    · exact b' y hy

theorem simText_ok {L : Lib} {i j : ℕ} {s : Space Str} {s2 : Option (Space Str)} {sim : Sim} : ∀ {ls : List Str} {txt : Str},
    simText L (i : ℤ) (j : ℤ) s s2 sim ls = .ok txt ↔
      ∃ os, List.Forall₂ (SimLine L s s2 sim i j) ls os ∧ txt = os.flatten := by
  intro ls
  induction ls with
  | nil =>
    intro txt
    simp [simText, eq_comm]
  | cons l ls ih =>
    intro txt
    simp only [simText, bind_eq_ok, pure_eq_ok]
    constructor
    · rintro ⟨w1, h1, w2, h2, x, hx, rest, hr, h⟩
      obtain rfl := ok_inj h
      obtain ⟨os, ho, rfl⟩ := ih.1 hr
      exact ⟨_ :: os, .cons ⟨w1, w2, x, pyGet_nat_iff.1 h1, pyGet_nat_iff.1 h2, hx, rfl⟩ ho, by simp⟩
    · rintro ⟨os, ho, rfl⟩
      cases ho with
      | cons h1 h2 =>
        obtain ⟨w1, w2, x, a, b, c, rfl⟩ := h1
        exact ⟨w1, pyGet_nat_iff.2 a, w2, pyGet_nat_iff.2 b, x, c, _, ih.2 ⟨_, h2, rfl⟩, by simp⟩

theorem forall₂_det {α β : Type} {R : α → β → Prop} (hd : ∀ a b c, R a b → R a c → b = c) :
    ∀ {l : List α} {m n : List β}, List.Forall₂ R l m → List.Forall₂ R l n → m = n := by
  intro l
  induction l with
  | nil => intro m n h1 h2; cases h1; cases h2; rfl
  | cons a l ih =>
    intro m n h1 h2
    cases h1 with
    | cons a1 a2 => cases h2 with
      | cons b1 b2 => rw [hd _ _ _ a1 b1, ih a2 b2]

theorem simLine_det {L : Lib} {s : Space Str} {s2 : Option (Space Str)} {sim : Sim} {i j : ℕ} (l a b : Str)
    (h1 : SimLine L s s2 sim i j l a) (h2 : SimLine L s s2 sim i j l b) : a = b := by
  obtain ⟨w1, w2, x, e1, e2, e3, rfl⟩ := h1
  obtain ⟨w1', w2', x', e1', e2', e3', rfl⟩ := h2
  rw [e1] at e1'; rw [e2] at e2'
  injection e1' with e1'; injection e2' with e2'
  subst e1' e2'
  rw [e3] at e3'
  obtain rfl := ok_inj e3'
  rfl

theorem simFile_det {L : Lib} {s : Space Str} {s2 : Option (Space Str)} {sim : Sim} {i j : ℕ} {c a b : Str}
    (h1 : SimFile L s s2 sim i j c a) (h2 : SimFile L s s2 sim i j c b) : a = b := by
  obtain ⟨l1, f1, rfl⟩ := h1
  obtain ⟨l2, f2, rfl⟩ := h2
  rw [forall₂_det simLine_det f1 f2]

theorem loadSecond_spaces {L : Lib} {fs : Fs} {f : Str} {gs : List Str} {s : Space Str} {o : Option (Space Str)}
    (h1 : loadSpace L fs f = .ok s) : loadSecond L fs (f :: gs) = .ok o ↔ SpacesFrom L fs (f :: gs) s o := by
  constructor
  · intro h2
    match gs, h2 with
    | [], h2 => obtain rfl := ok_inj (show (.ok none : Py (Option (Space Str))) = .ok o from h2); exact .one (loadSpace_ok.1 h1) (by simp)
    | [g], h2 =>
      simp only [loadSecond, bind_eq_ok, pure_eq_ok] at h2
      obtain ⟨t, h4, h3⟩ := h2
      obtain rfl := ok_inj h3
      exact .two (loadSpace_ok.1 h1) (loadSpace_ok.1 h4)
    | _ :: _ :: _, h2 =>
      obtain rfl := ok_inj (show (.ok none : Py (Option (Space Str))) = .ok o from h2); exact .one (loadSpace_ok.1 h1) (by simp)
  · intro h
    cases h with
    | two a b => simp only [loadSecond, loadSpace_ok.2 b, ok_bind, pure_eq_ok]
    | one a b =>
      match gs, b with
      | [], _ => rfl
      | [g], hl => simp at hl
      | _ :: _ :: _, _ => rfl

/-- A measure that is in the table writes its file, any other measure does nothing. -/
theorem simMeasure_ok {L : Lib} {fs fs' : Fs} {inFile base outDir d m : Str} {i j : ℕ} {s : Space Str}
    {s2 : Option (Space Str)} (hb : IsBase inFile base) (hn : IsFileName base) (hd : '/' ∉ d)
    (h : simMeasure L inFile (i : ℤ) (j : ℤ) outDir (cs!"SIMS." ++ base ++ ['.'] ++ d) s s2 m fs = .ok fs') :
    (∀ sim, (m, sim) ∈ measureTable → ∃ content out, fs.read inFile = .ok content ∧ SimFile L s s2 sim i j content out ∧
      Wrote fs fs' (simsFile outDir base d m) out) ∧
    ((∀ sim, (m, sim) ∉ measureTable) → fs' = fs) := by
  unfold simMeasure at h
  split at h
  · rename_i hm
    obtain rfl := ok_inj h
    exact ⟨fun sim hs => absurd hs (simOf_none.1 hm sim), fun _ => rfl⟩
  · rename_i sim hm
    have hm' := simOf_eq.1 hm
    refine ⟨fun sim' hs => ?_, fun hno => absurd hm' (hno sim)⟩
    have : sim' = sim := by
      have := simOf_eq.2 hs
      rw [hm] at this
      injection this with this; exact this.symm
    subst this
    obtain ⟨c1, c2, c3⟩ := measure_chars hs
    have hout : outDir ++ ['/'] ++ (cs!"SIMS." ++ base ++ ['.'] ++ d) ++ ['.'] ++ m = simsFile outDir base d m := by
      simp [simsFile]
    simp only [hout, bind_eq_ok] at h
    obtain ⟨fs1, h1, x, h2, fs2, h3, content, h4, txt, h5, h6⟩ := h
    have g1 := Fs.createParent_files h1
    obtain ⟨a1, _, _, a4⟩ := Fs.write_ok h3
    obtain ⟨b1, _, _, b4⟩ := Fs.write_ok h6
    have hne : ∀ g : Fs, g.resolve inFile ≠ g.resolve (simsFile outDir base d m) := by
      intro g
      rw [simsFile_eq]
      refine resolve_longer g hb hn ?_ ?_ ?_
      · have := hb.1
        simp [this, hd, c1]
      · simp; omega
      · simp
    have hr : fs2.read inFile = fs.read inFile := by
      rw [read_congr a1 (by rw [a4, if_neg (hne fs1)])]
      exact read_congr g1.2 (by rw [g1.1])
    rw [hr] at h4
    obtain ⟨os, ho, rfl⟩ := simText_ok.1 h5
    refine ⟨content, os.flatten, h4, ⟨os, ho, rfl⟩, (b1.trans a1).trans g1.2, fun x => ?_⟩
    have r2 := Fs.resolve_cwd a1 (simsFile outDir base d m)
    have r1 := Fs.resolve_cwd g1.2 (simsFile outDir base d m)
    rw [b4, r2, a4, r1, g1.1]
    split <;> rfl

/-! ### Directories -/

theorem withSlash_resolve (fs : Fs) (d : Str) {nm : Str} (hs : '/' ∉ nm) (h1 : nm ≠ []) (h2 : nm ≠ ['.']) :
    fs.resolve (withSlash d ++ nm) = fs.resolve (withSlash d) ++ [nm] := by
  have key : ∃ o, withSlash d = o ++ ['/'] := by
    unfold withSlash
    split
    · rename_i h
      exact ⟨d.dropLast, (List.dropLast_append_getLast? _ h).symm⟩
    · exact ⟨d, rfl⟩
  obtain ⟨o, ho⟩ := key
  rw [ho]
  have := resolve_in fs o hs h1 h2
  rw [List.append_assoc]
  exact this

theorem withSlash_slash (fs : Fs) (d nm : Str) (hd : d ≠ []) : fs.resolve (withSlash d ++ nm) = fs.resolve (d ++ '/' :: nm) := by
  unfold withSlash
  split
  · rename_i h
    obtain ⟨o, rfl⟩ : ∃ o, d = o ++ ['/'] := ⟨d.dropLast, (List.dropLast_append_getLast? _ h).symm⟩
    have h1 : pathComps (o ++ ['/'] ++ nm) = pathComps o ++ pathComps nm := by
      rw [List.append_assoc]; exact pathComps_slash o nm
    have h2 : pathComps (o ++ ['/'] ++ '/' :: nm) = pathComps o ++ pathComps nm := by
      rw [List.append_assoc, show (['/'] ++ '/' :: nm : Str) = '/' :: ('/' :: nm) from rfl, pathComps_slash]
      have := pathComps_slash [] nm
      simp only [List.nil_append, pathComps_nil] at this
      rw [this]
    have h3 : isAbs (o ++ ['/'] ++ nm) = isAbs (o ++ ['/'] ++ '/' :: nm) := by
      unfold isAbs; cases o <;> simp
    unfold Fs.resolve
    rw [h1, h2, h3]
  · simp

theorem isPkl_iff {f : Str} : isPkl f = true ↔ ∃ s, f = s ++ cs!".pkl" := by
  unfold isPkl
  rw [decide_eq_true_iff]
  constructor
  · rintro ⟨s, rfl⟩; exact ⟨s, rfl⟩
  · rintro ⟨s, rfl⟩; exact ⟨s, rfl⟩

theorem withSlash_stem (d : Str) {s : Str} (hs : '/' ∉ s) : IsStem (withSlash d ++ (s ++ cs!".pkl")) s := by
  refine ⟨s ++ cs!".pkl", ⟨by simp [hs], ?_⟩, Or.inl ⟨cs!"pkl", by decide, by simp⟩⟩
  right
  unfold withSlash
  split
  · rename_i h
    obtain ⟨o, rfl⟩ : ∃ o, d = o ++ ['/'] := ⟨d.dropLast, (List.dropLast_append_getLast? _ h).symm⟩
    exact ⟨o, by simp⟩
  · exact ⟨d, by simp⟩

theorem mem_children {fs : Fs} {d : List Str} {nm : Str} :
    nm ∈ fs.children d ↔ d ++ [nm] ∈ fs.dirs ++ fs.files.keys := by
  unfold Fs.children
  simp only [List.mem_filterMap, List.mem_filter, decide_eq_true_eq]
  constructor
  · rintro ⟨p, ⟨h1, h2, h3⟩, h4⟩
    obtain ⟨q, rfl⟩ : ∃ q, p = q ++ [nm] := ⟨p.dropLast, (List.dropLast_append_getLast? _ h4).symm⟩
    rw [List.dropLast_concat] at h3
    subst h3; exact h1
  · intro h
    exact ⟨_, ⟨h, by simp, by simp⟩, by simp⟩

end
end Dissect
