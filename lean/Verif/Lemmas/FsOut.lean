import Verif.Lemmas.FsDirs
import Verif.Lemmas.Jobs

/-! Lemmas: writing into an output directory succeeds. -/

namespace Dissect

theorem pathSplit_slash (o : Str) {nm : Str} (h : '/' ∉ nm) : (pathSplit (o ++ '/' :: nm)).2 = nm := by
  have : (pathSplit (o ++ '/' :: nm)).2 = ((o ++ '/' :: nm).reverse.takeWhile (fun c => decide (c ≠ '/'))).reverse := by
    unfold pathSplit; simp only []; split <;> rfl
  rw [this]
  have hr : (o ++ '/' :: nm).reverse = nm.reverse ++ '/' :: o.reverse := by simp
  rw [hr, List.takeWhile_append_of_pos]
  · simp
  · intro c hc
    rw [List.mem_reverse] at hc
    simp only [ne_eq, decide_not, Bool.not_eq_eq_eq_not, Bool.not_true, decide_eq_false_iff_not]
    rintro rfl
    exact h hc

/-- An existing or creatable directory: the file system is consistent and no regular file lies on the way. -/
structure OutDir (fs : Fs) (dir : List Str) : Prop where
  ok : fs.Ok
  free : ∀ f ∈ fs.files.keys, ¬ f <+: dir

/-- `outDir + "/" + nm` lies in the directory named by `outDir`. -/
theorem resolve_in (fs : Fs) (o : Str) {nm : Str} (hs : '/' ∉ nm) (h1 : nm ≠ []) (h2 : nm ≠ ['.']) :
    fs.resolve (o ++ '/' :: nm) = fs.resolve (o ++ ['/']) ++ [nm] := by
  have habs : isAbs (o ++ '/' :: nm) = isAbs (o ++ ['/']) := by
    unfold isAbs; cases o <;> simp
  have hp : pathComps (o ++ ['/']) = pathComps o := by
    rw [pathComps_slash]; simp
  unfold Fs.resolve
  have hn : pathComps nm = [nm] := by
    rw [pathComps_noslash hs, if_neg (by simp [h1, h2])]
  rw [habs, hp, pathComps_slash, hn]
  split <;> simp

theorem dirname_in (fs : Fs) (o : Str) {nm : Str} (hs : '/' ∉ nm) (h1 : nm ≠ []) (h2 : nm ≠ ['.']) :
    fs.resolve (dirname (o ++ '/' :: nm)) = fs.resolve (o ++ ['/']) := by
  have := resolve_file fs (p := o ++ '/' :: nm) (by rw [pathSplit_slash o hs]; exact h1)
    (by rw [pathSplit_slash o hs]; exact h2)
  rw [resolve_in fs o hs h1 h2, pathSplit_slash o hs] at this
  exact (List.append_inj' this rfl).1.symm

theorem OutDir.write {fs : Fs} {o nm c : Str} (h : OutDir fs (fs.resolve (o ++ ['/']))) (hs : '/' ∉ nm) (h1 : nm ≠ [])
    (h2 : nm ≠ ['.']) (hd : fs.resolve (o ++ '/' :: nm) ∉ fs.dirs) (hpar : fs.resolve (o ++ ['/']) ∈ fs.dirs) :
    ∃ fs', fs.write (o ++ '/' :: nm) c = .ok fs' ∧ OutDir fs' (fs.resolve (o ++ ['/'])) := by
  have hr := resolve_in fs o hs h1 h2
  obtain ⟨fs', hw⟩ := Fs.write_succeeds (fs := fs) (p := o ++ '/' :: nm) (c := c) (by simp)
    (by
      rintro ⟨x, hx⟩
      have := congrArg List.getLast? hx
      rw [List.getLast?_append] at this
      simp only [List.getLast?_singleton, Option.some_or, List.getLast?_append, List.getLast?_cons] at this
      cases hnm : nm.getLast? with
      | none => exact h1 (List.getLast?_eq_none_iff.1 hnm)
      | some z =>
        rw [hnm] at this
        simp only [Option.getD_some, Option.some_or, Option.some.injEq] at this
        subst this
        exact hs (List.mem_of_getLast? hnm))
    hd (by rw [hr, List.dropLast_concat]; exact hpar)
  refine ⟨fs', hw, ?_⟩
  have hkeys : ∀ f, f ∈ fs'.files.keys → f = fs.resolve (o ++ '/' :: nm) ∨ f ∈ fs.files.keys := by
    intro f hf
    obtain ⟨a, b, _, e⟩ := Fs.write_ok hw
    by_cases hx : f = fs.resolve (o ++ '/' :: nm)
    · exact Or.inl hx
    · right
      have := e f
      rw [if_neg hx] at this
      by_contra hn
      have hnone : fs.files.get? f = none := by
        cases hg : fs.files.get? f with
        | none => rfl
        | some v => exact absurd (Dict.mem_keys_iff.2 ⟨v, hg⟩) hn
      rw [hnone] at this
      obtain ⟨v, hv⟩ := Dict.mem_keys_iff.1 hf
      rw [hv] at this
      cases this
  obtain ⟨a, b, _, e⟩ := Fs.write_ok hw
  refine ⟨⟨by rw [b]; exact h.ok.root, by rw [a, b]; exact h.ok.cwd, by rw [b]; exact h.ok.parent, ?_, ?_⟩, ?_⟩
  · intro f hf
    rw [b]
    rcases hkeys f hf with rfl | hf
    · rw [hr, List.dropLast_concat]; exact hpar
    · exact h.ok.fileParent f hf
  · intro f hf
    rw [b]
    rcases hkeys f hf with rfl | hf
    · exact hd
    · exact h.ok.disjoint f hf
  · intro f hf hp
    rcases hkeys f hf with rfl | hf
    · have := hp.length_le
      rw [hr] at this
      simp at this
    · exact h.free f hf hp

theorem OutDir.createParent {fs : Fs} {o nm : Str} (h : OutDir fs (fs.resolve (o ++ ['/']))) (hs : '/' ∉ nm) (h1 : nm ≠ [])
    (h2 : nm ≠ ['.']) :
    ∃ fs1, fs.createParentDirectories (o ++ '/' :: nm) = .ok fs1 ∧ OutDir fs1 (fs.resolve (o ++ ['/'])) ∧
      fs1.cwd = fs.cwd ∧ fs1.files = fs.files ∧ fs.resolve (o ++ ['/']) ∈ fs1.dirs ∧
      ∀ d ∈ fs1.dirs, d ∈ fs.dirs ∨ d <+: fs.resolve (o ++ ['/']) := by
  have hdn := dirname_in fs o hs h1 h2
  obtain ⟨fs1, g1, g2, g3, g4, g5, g6, g7⟩ := Fs.createParent_ok h.ok (p := o ++ '/' :: nm) (by simp)
    (by rw [hdn]; exact h.free)
  rw [hdn] at g5 g7
  exact ⟨fs1, g1, ⟨g2, by rw [g3]; exact h.free⟩, g4, g3, g5, g7⟩

theorem OutDir.save {fs : Fs} {o nm c : Str} (h : OutDir fs (fs.resolve (o ++ ['/']))) (hs : '/' ∉ nm) (h1 : nm ≠ [])
    (h2 : nm ≠ ['.']) (hd : fs.resolve (o ++ '/' :: nm) ∉ fs.dirs) :
    ∃ fs', fs.save c (o ++ '/' :: nm) = .ok fs' ∧ OutDir fs' (fs.resolve (o ++ ['/'])) ∧ fs'.cwd = fs.cwd ∧
      fs.resolve (o ++ ['/']) ∈ fs'.dirs ∧ ∀ d ∈ fs'.dirs, d ∈ fs.dirs ∨ d <+: fs.resolve (o ++ ['/']) := by
  obtain ⟨fs1, g1, g2, g3, g4, g5, g6⟩ := h.createParent (nm := nm) hs h1 h2
  have hr1 : fs1.resolve (o ++ ['/']) = fs.resolve (o ++ ['/']) := Fs.resolve_cwd g3 _
  obtain ⟨fs', w1, w2⟩ := OutDir.write (fs := fs1) (o := o) (nm := nm) (c := c) (by rw [hr1]; exact g2) hs h1 h2
    (by
      rw [Fs.resolve_cwd g3]
      intro hm
      rcases g6 _ hm with hm | hm
      · exact hd hm
      · have := hm.length_le
        rw [resolve_in fs o hs h1 h2] at this
        simp at this) (by rw [hr1]; exact g5)
  obtain ⟨a, b, _, _⟩ := Fs.write_ok w1
  rw [hr1] at w2
  refine ⟨fs', ?_, w2, a.trans g3, by rw [b]; exact g5, by rw [b]; exact g6⟩
  unfold Fs.save
  rw [g1, ok_bind, w1]

end Dissect
