import Verif.Lemmas.Fs
import Mathlib.Tactic.Tauto

/-! `os.makedirs` on a consistent file system. -/

namespace Dissect

/-- A consistent file system: the root and the working directory exist, every directory and every file lies in an
existing directory, and no file is a directory. -/
structure Fs.Ok (fs : Fs) : Prop where
  root : ([] : List Str) ∈ fs.dirs
  cwd : fs.cwd ∈ fs.dirs
  parent : ∀ d ∈ fs.dirs, d.dropLast ∈ fs.dirs
  fileParent : ∀ f ∈ fs.files.keys, f.dropLast ∈ fs.dirs
  disjoint : ∀ f ∈ fs.files.keys, f ∉ fs.dirs

theorem pathComps_slashes (s : Str) (t : Str) (h : ∀ c ∈ t, c = '/') : pathComps (s ++ t) = pathComps s := by
  induction t generalizing s with
  | nil => simp
  | cons c t ih =>
    have hc : c = '/' := h c List.mem_cons_self
    subst hc
    rw [pathComps_slash]
    have := ih [] (fun c hc => h c (List.mem_cons_of_mem _ hc))
    simp only [List.nil_append, pathComps_nil] at this
    rw [this, List.append_nil]

theorem takeWhile_noslash (p : Str) : '/' ∉ (p.reverse.takeWhile (fun c => decide (c ≠ '/'))).reverse := by
  intro h
  rw [List.mem_reverse] at h
  have := List.mem_takeWhile_imp h
  simp at this

/-- The head before removing slashes is empty or ends in a slash. -/
theorem head_cases (p : Str) : (p.reverse.dropWhile (fun c => decide (c ≠ '/'))).reverse = [] ∨
    ∃ x, (p.reverse.dropWhile (fun c => decide (c ≠ '/'))).reverse = x ++ ['/'] := by
  cases hd : p.reverse.dropWhile (fun c => decide (c ≠ '/')) with
  | nil => left; rfl
  | cons c cs =>
    right
    have := List.head?_dropWhile_not (fun c => decide (c ≠ '/')) p.reverse
    rw [hd] at this
    simp at this
    subst this
    exact ⟨cs.reverse, by simp⟩

theorem split_join_path (p : Str) : (p.reverse.dropWhile (fun c => decide (c ≠ '/'))).reverse ++
    (p.reverse.takeWhile (fun c => decide (c ≠ '/'))).reverse = p := by
  rw [← List.reverse_append, List.takeWhile_append_dropWhile, List.reverse_reverse]

theorem rstrip_slash (h : Str) : ∃ t, (∀ c ∈ t, c = '/') ∧
    h = (h.reverse.dropWhile (fun c => decide (c = '/'))).reverse ++ t := by
  refine ⟨(h.reverse.takeWhile (fun c => decide (c = '/'))).reverse, ?_, ?_⟩
  · intro c hc
    rw [List.mem_reverse] at hc
    simpa using List.mem_takeWhile_imp hc
  · rw [← List.reverse_append, List.takeWhile_append_dropWhile, List.reverse_reverse]

theorem rstrip_eq_nil {h : Str} (hn : (h.reverse.dropWhile (fun c => decide (c = '/'))).reverse = []) :
    h.all (fun c => decide (c = '/')) = true := by
  rw [List.reverse_eq_nil_iff, List.dropWhile_eq_nil_iff] at hn
  rw [List.all_eq_true]
  intro c hc
  exact hn c (List.mem_reverse.2 hc)

/-- What `posixpath.split` returns. -/
theorem pathSplit_spec (p : Str) :
    '/' ∉ (pathSplit p).2 ∧ pathComps p = pathComps (pathSplit p).1 ++ pathComps (pathSplit p).2 ∧
    ((pathSplit p).1 ≠ [] → isAbs (pathSplit p).1 = isAbs p) ∧
    ((pathSplit p).1 = [] → '/' ∉ p ∧ (pathSplit p).2 = p) ∧
    ((∀ c ∈ (pathSplit p).1, c = '/') ∨ ∃ x c, (pathSplit p).1 = x ++ [c] ∧ c ≠ '/') ∧
    ('/' ∉ p → (pathSplit p).1 = []) := by
  set tl := (p.reverse.takeWhile (fun c => decide (c ≠ '/'))).reverse with htl
  set hd := (p.reverse.dropWhile (fun c => decide (c ≠ '/'))).reverse with hhd
  have hp : hd ++ tl = p := split_join_path p
  have hns : '/' ∉ tl := takeWhile_noslash p
  have hcase : hd = [] ∨ ∃ x, hd = x ++ ['/'] := head_cases p
  have hcomps : pathComps p = pathComps hd ++ pathComps tl := by
    rw [← hp]
    rcases hcase with h | ⟨x, h⟩
    · rw [h]; simp
    · rw [h, List.append_assoc, List.singleton_append, pathComps_slash, ← List.append_nil (x ++ ['/']),
        List.append_assoc, List.singleton_append, pathComps_slash]
      simp
  have habs : hd ≠ [] → isAbs hd = isAbs p := by
    intro hne
    rw [← hp]
    obtain ⟨c, cs, hc⟩ := List.exists_cons_of_ne_nil hne
    rw [hc]; rfl
  have hlast : '/' ∉ p → hd = [] := by
    intro hn
    rcases hcase with h | ⟨x, h⟩
    · exact h
    · exfalso; apply hn; rw [← hp, h]; simp
  by_cases hall : hd.all (fun c => decide (c = '/')) = true
  · have he : pathSplit p = (hd, tl) := by
      unfold pathSplit
      simp only [← htl, ← hhd]
      rw [if_pos hall]
    rw [he]
    refine ⟨hns, hcomps, habs, ?_, Or.inl ?_, hlast⟩
    · intro h
      simp only at h
      rw [h, List.nil_append] at hp
      exact ⟨hp ▸ hns, hp⟩
    · intro c hc
      have := List.all_eq_true.1 hall c hc
      simpa using this
  · have he : pathSplit p = ((hd.reverse.dropWhile (fun c => decide (c = '/'))).reverse, tl) := by
      unfold pathSplit
      simp only [← htl, ← hhd]
      rw [if_neg hall]
    rw [he]
    obtain ⟨t, ht, hd'⟩ := rstrip_slash hd
    have hne : (hd.reverse.dropWhile (fun c => decide (c = '/'))).reverse ≠ [] := fun h => hall (rstrip_eq_nil h)
    refine ⟨hns, ?_, ?_, fun h => absurd h hne, Or.inr ?_, ?_⟩
    · rw [hcomps]
      congr 1
      conv_lhs => rw [hd']
      exact pathComps_slashes _ _ ht
    · intro _
      have hdne : hd ≠ [] := by
        intro h; apply hall; rw [h]; rfl
      rw [← habs hdne]
      obtain ⟨c, cs, hc⟩ := List.exists_cons_of_ne_nil hne
      conv_rhs => rw [hd', hc]
      rw [hc]; rfl
    · cases hx : hd.reverse.dropWhile (fun c => decide (c = '/')) with
      | nil => exact absurd (by rw [hx]; rfl) hne
      | cons c cs =>
        have := List.head?_dropWhile_not (fun c => decide (c = '/')) hd.reverse
        rw [hx] at this
        simp at this
        exact ⟨cs.reverse, c, by simp, this⟩
    · intro hn
      exact absurd (by rw [hlast hn]; rfl) hne

theorem makedirsSplit_spec (p : Str) (hp : p ≠ []) :
    '/' ∉ (Fs.makedirsSplit p).2 ∧
    pathComps p = pathComps (Fs.makedirsSplit p).1 ++ pathComps (Fs.makedirsSplit p).2 ∧
    ((Fs.makedirsSplit p).1 ≠ [] → isAbs (Fs.makedirsSplit p).1 = isAbs p) ∧
    ((Fs.makedirsSplit p).1 = [] → isAbs p = false) ∧
    ((Fs.makedirsSplit p).2 = [] → pathComps p = []) := by
  obtain ⟨a1, a2, a3, a4, a5, a6⟩ := pathSplit_spec p
  unfold Fs.makedirsSplit
  simp only []
  by_cases ht : (pathSplit p).2 = []
  · rw [if_pos ht]
    obtain ⟨b1, b2, b3, b4, b5, b6⟩ := pathSplit_spec (pathSplit p).1
    have hne : (pathSplit p).1 ≠ [] := by
      intro h
      obtain ⟨_, h2⟩ := a4 h
      rw [ht] at h2
      exact hp h2.symm
    have hc : pathComps p = pathComps (pathSplit p).1 := by rw [a2, ht]; simp
    refine ⟨b1, hc.trans b2, fun h => (b3 h).trans (a3 hne), ?_, ?_⟩
    · intro h
      obtain ⟨h1, _⟩ := b4 h
      rw [← a3 hne]
      cases hx : (pathSplit p).1 with
      | nil => exact absurd hx hne
      | cons c cs =>
        rw [hx] at h1
        simp only [isAbs, List.head?_cons]
        simp only [List.mem_cons, not_or] at h1
        have hcc : c ≠ '/' := fun h => h1.1 h.symm
        simp [hcc]
    · intro h
      rw [hc]
      rcases a5 with h5 | ⟨x, c, h5, h6⟩
      · have := pathComps_slashes [] _ h5
        simpa using this
      · exfalso
        have hs := split_join_path (pathSplit p).1
        rw [h5] at h
        unfold pathSplit at h
        simp only [List.reverse_append, List.reverse_singleton, List.singleton_append] at h
        rw [List.takeWhile_cons_of_pos (by simpa using h6)] at h
        split at h <;> simp at h
  · rw [if_neg ht]
    refine ⟨a1, a2, a3, ?_, fun h => absurd h ht⟩
    intro h
    obtain ⟨h1, _⟩ := a4 h
    cases p with
    | nil => rfl
    | cons c cs =>
      simp only [List.mem_cons, not_or] at h1
      have hcc : c ≠ '/' := fun h => h1.1 h.symm
      simp [isAbs, hcc]

namespace Fs

theorem resolve_split (fs : Fs) {p h t : Str} (hc : pathComps p = pathComps h ++ pathComps t)
    (ha : h ≠ [] → isAbs h = isAbs p) (hn : h = [] → isAbs p = false) :
    fs.resolve p = fs.resolve h ++ pathComps t := by
  unfold resolve
  by_cases hh : h = []
  · subst hh
    rw [hn rfl]
    simp only [pathComps_nil, List.nil_append] at hc
    simp [isAbs, hc]
  · rw [← ha hh, hc]
    split <;> simp

theorem not_exists {fs : Fs} {p : Str} (hp : p ≠ []) (h : fs.exists_ p = false) :
    fs.resolve p ∉ fs.dirs ∧ fs.resolve p ∉ fs.files.keys := by
  unfold exists_ at h
  rw [decide_eq_false_iff_not] at h
  simp only [hp, ne_eq, not_false_eq_true, true_and, not_or] at h
  refine ⟨h.1, fun hk => h.2 ?_⟩
  unfold Dict.contains
  simpa using hk

theorem exists_of {fs : Fs} {p : Str} (h : fs.exists_ p = true) :
    p ≠ [] ∧ (fs.resolve p ∈ fs.dirs ∨ fs.resolve p ∈ fs.files.keys) := by
  unfold exists_ at h
  rw [decide_eq_true_eq] at h
  refine ⟨h.1, ?_⟩
  rcases h.2 with h | h
  · exact Or.inl h
  · right
    unfold Dict.contains at h
    simpa using h

/-- `mkdir` on a path without a node whose parent is a directory. -/
theorem mkdir_ok {fs : Fs} (hok : fs.Ok) {p : Str} (hp : p ≠ []) (hd : fs.resolve p ∉ fs.dirs)
    (hf : fs.resolve p ∉ fs.files.keys) (hpar : (fs.resolve p).dropLast ∈ fs.dirs) :
    ∃ fs', fs.mkdir p = .ok fs' ∧ fs'.cwd = fs.cwd ∧ fs'.files = fs.files ∧ fs'.Ok ∧
      fs'.dirs = fs.resolve p :: fs.dirs := by
  have hex : fs.exists_ p = false := by
    unfold exists_
    rw [decide_eq_false_iff_not]
    rintro ⟨_, h | h⟩
    · exact hd h
    · unfold Dict.contains at h
      exact hf (by simpa using h)
  refine ⟨{ fs with dirs := fs.resolve p :: fs.dirs }, ?_, rfl, rfl, ?_, rfl⟩
  · unfold mkdir
    rw [if_neg]
    rintro (h | h | h)
    · exact hp h
    · rw [hex] at h; cases h
    · exact h hpar
  · constructor
    · exact List.mem_cons_of_mem _ hok.root
    · exact List.mem_cons_of_mem _ hok.cwd
    · intro d hd'
      rcases List.mem_cons.1 hd' with rfl | hd'
      · exact List.mem_cons_of_mem _ hpar
      · exact List.mem_cons_of_mem _ (hok.parent d hd')
    · intro f hf'
      exact List.mem_cons_of_mem _ (hok.fileParent f hf')
    · intro f hf' hm
      rcases List.mem_cons.1 hm with rfl | hm
      · exact hf hf'
      · exact hok.disjoint f hf' hm

/-- `os.makedirs` succeeds on a consistent file system when nothing exists at the path and no ancestor is a file. -/
theorem makedirs_ok : ∀ (n : ℕ) (fs : Fs) (name : Str), name.length ≤ n → fs.Ok → name ≠ [] →
    fs.exists_ name = false → (∀ f ∈ fs.files.keys, ¬ f <+: fs.resolve name) →
    ∃ fs', fs.makedirs name = .ok fs' ∧ fs.resolve name ∈ fs'.dirs ∧ fs'.cwd = fs.cwd ∧ fs'.files = fs.files ∧ fs'.Ok ∧
      (∀ d ∈ fs.dirs, d ∈ fs'.dirs) ∧ ∀ d ∈ fs'.dirs, d ∈ fs.dirs ∨ d <+: fs.resolve name := by
  intro n
  induction n with
  | zero =>
    intro fs name hlen _ hne
    exact absurd (List.length_eq_zero_iff.1 (by omega)) hne
  | succ n ih =>
    intro fs name hlen hok hne hex hfile
    obtain ⟨a1, a2, a3, a4, a5⟩ := makedirsSplit_spec name hne
    have hres := resolve_split fs a2 a3 a4
    obtain ⟨hnd, hnf⟩ := not_exists hne hex
    have htail : (makedirsSplit name).2 ≠ [] := by
      intro h
      apply hnd
      have := a5 h
      unfold resolve
      rw [this]
      split
      · exact hok.root
      · simpa using hok.cwd
    have hcomp := pathComps_noslash a1
    have hpre : fs.resolve (makedirsSplit name).1 <+: fs.resolve name := ⟨_, hres.symm⟩
    rw [makedirs]
    by_cases hcond : (makedirsSplit name).1 ≠ [] ∧ (makedirsSplit name).2 ≠ [] ∧
        fs.exists_ (makedirsSplit name).1 = false
    · rw [dif_pos hcond]
      have hlt := makedirsSplit_lt name htail
      obtain ⟨fs1, g1, g2, g3, g4, g5, g6, g7⟩ := ih fs (makedirsSplit name).1 (by omega) hok hcond.1 hcond.2.2
        (fun f hf hp => hfile f hf (hp.trans hpre))
      rw [g1]
      simp only []
      by_cases hdot : (makedirsSplit name).2 = ['.']
      · rw [if_pos hdot]
        have hsame : fs.resolve name = fs.resolve (makedirsSplit name).1 := by
          rw [hres, hcomp, if_pos (Or.inr hdot), List.append_nil]
        refine ⟨fs1, rfl, by rw [hsame]; exact g2, g3, g4, g5, g6, ?_⟩
        intro d hd
        rw [hsame]
        exact g7 d hd
      · rw [if_neg hdot]
        rw [hcomp, if_neg (by tauto)] at hres
        have hr1 : fs1.resolve name = fs.resolve name := resolve_cwd g3 name
        obtain ⟨fs2, k1, k2, k3, k4, k5⟩ := mkdir_ok g5 hne (p := name) (by
            rw [hr1]
            intro hd
            rcases g7 _ hd with h | h
            · exact hnd h
            · have := h.length_le
              rw [hres] at this
              simp at this)
          (by rw [hr1, g4]; exact hnf)
          (by rw [hr1, hres, List.dropLast_concat]; exact g2)
        refine ⟨fs2, k1, ?_, k2.trans g3, k3.trans g4, k4, ?_, ?_⟩
        · rw [k5, hr1]; exact List.mem_cons_self
        · intro d hd; rw [k5]; exact List.mem_cons_of_mem _ (g6 d hd)
        · intro d hd
          rw [k5, hr1] at hd
          rcases List.mem_cons.1 hd with rfl | hd
          · exact Or.inr List.prefix_rfl
          · rcases g7 d hd with h | h
            · exact Or.inl h
            · exact Or.inr (h.trans hpre)
    · rw [dif_neg hcond]
      have hhead : fs.resolve (makedirsSplit name).1 ∈ fs.dirs := by
        by_cases hh : (makedirsSplit name).1 = []
        · rw [hh]
          have : fs.resolve [] = fs.cwd := by simp [resolve, isAbs]
          rw [this]
          exact hok.cwd
        · have : fs.exists_ (makedirsSplit name).1 = true := by
            by_contra hc
            rw [Bool.not_eq_true] at hc
            exact hcond ⟨hh, htail, hc⟩
          rcases (exists_of this).2 with h | h
          · exact h
          · exact absurd hpre (hfile _ h)
      have hdot : (makedirsSplit name).2 ≠ ['.'] := by
        intro hd
        rw [hcomp, if_pos (Or.inr hd), List.append_nil] at hres
        rw [hres] at hnd
        exact hnd hhead
      rw [hcomp, if_neg (by tauto)] at hres
      obtain ⟨fs2, k1, k2, k3, k4, k5⟩ := mkdir_ok hok hne hnd hnf
        (by rw [hres, List.dropLast_concat]; exact hhead)
      refine ⟨fs2, k1, ?_, k2, k3, k4, ?_, ?_⟩
      · rw [k5]; exact List.mem_cons_self
      · intro d hd; rw [k5]; exact List.mem_cons_of_mem _ hd
      · intro d hd
        rw [k5] at hd
        rcases List.mem_cons.1 hd with rfl | hd
        · exact Or.inr List.prefix_rfl
        · exact Or.inl hd

theorem mkdir_files {fs fs' : Fs} {p : Str} (h : fs.mkdir p = .ok fs') : fs'.files = fs.files ∧ fs'.cwd = fs.cwd := by
  unfold mkdir at h
  split at h
  · cases h
  · injection h with h; subst h; exact ⟨rfl, rfl⟩

/-- Creating directories changes no file. -/
theorem makedirs_files : ∀ (n : ℕ) {fs fs' : Fs} {p : Str}, p.length ≤ n → fs.makedirs p = .ok fs' →
    fs'.files = fs.files ∧ fs'.cwd = fs.cwd := by
  intro n
  induction n with
  | zero =>
    intro fs fs' p hlen h
    have : p = [] := List.length_eq_zero_iff.1 (by omega)
    subst this
    rw [makedirs] at h
    rw [dif_neg (by simp [makedirsSplit, pathSplit])] at h
    exact mkdir_files h
  | succ n ih =>
    intro fs fs' p hlen h
    rw [makedirs] at h
    split at h
    · rename_i hc
      split at h
      · cases h
      · rename_i fs1 h1
        have hlt := makedirsSplit_lt p hc.2.1
        obtain ⟨g1, g2⟩ := ih (by omega) h1
        split at h
        · injection h with h; subst h; exact ⟨g1, g2⟩
        · obtain ⟨k1, k2⟩ := mkdir_files h
          exact ⟨k1.trans g1, k2.trans g2⟩
    · exact mkdir_files h

theorem createParent_files {fs fs' : Fs} {p : Str} (h : fs.createParentDirectories p = .ok fs') :
    fs'.files = fs.files ∧ fs'.cwd = fs.cwd := by
  unfold createParentDirectories at h
  split at h
  · injection h with h; subst h; exact ⟨rfl, rfl⟩
  · exact makedirs_files _ le_rfl h

end Fs
theorem pathSplit_append (p : Str) {e : Str} (he : '/' ∉ e) :
    pathSplit (p ++ e) = ((pathSplit p).1, (pathSplit p).2 ++ e) := by
  have hall : ∀ c ∈ e.reverse, (fun c => decide (c ≠ '/')) c = true := by
    intro c hc
    rw [List.mem_reverse] at hc
    simp only [decide_eq_true_eq]
    rintro rfl
    exact he hc
  unfold pathSplit
  rw [List.reverse_append, List.takeWhile_append_of_pos hall, List.dropWhile_append_of_pos hall]
  simp only [List.reverse_append, List.reverse_reverse]
  split <;> rfl

/-- A path whose last component is a proper name: its node is that name in the directory `dirname`. -/
theorem resolve_file (fs : Fs) {p : Str} (h1 : (pathSplit p).2 ≠ []) (h2 : (pathSplit p).2 ≠ ['.']) :
    fs.resolve p = fs.resolve (dirname p) ++ [(pathSplit p).2] := by
  obtain ⟨a1, a2, a3, a4, a5, a6⟩ := pathSplit_spec p
  have := Fs.resolve_split fs a2 a3 (fun h => by
    have hn := (a4 h).1
    cases p with
    | nil => rfl
    | cons c cs =>
      have hc : c ≠ '/' := by rintro rfl; apply hn; simp
      simp [isAbs, hc])
  rw [pathComps_noslash a1, if_neg (by tauto)] at this
  exact this

/-- The last component of a path that does not end in `/`. -/
theorem pathSplit_snd_ne_nil {p : Str} (hp : p ≠ []) (h : ¬ ['/'] <:+ p) : (pathSplit p).2 ≠ [] := by
  intro hn
  have hj := split_join_path p
  have htl : (p.reverse.takeWhile (fun c => decide (c ≠ '/'))).reverse = (pathSplit p).2 := by
    unfold pathSplit; simp only []; split <;> rfl
  rw [htl, hn, List.append_nil] at hj
  rcases head_cases p with h' | ⟨x, h'⟩
  · rw [h'] at hj; exact hp hj.symm
  · apply h
    rw [← hj, h']
    exact ⟨x, rfl⟩

theorem pathSplit_snd_ne_dot {p : Str} (hs : '/' ∈ p) (h : ¬ ['/', '.'] <:+ p) : (pathSplit p).2 ≠ ['.'] := by
  intro hn
  have hj := split_join_path p
  have htl : (p.reverse.takeWhile (fun c => decide (c ≠ '/'))).reverse = (pathSplit p).2 := by
    unfold pathSplit; simp only []; split <;> rfl
  rw [htl, hn] at hj
  rcases head_cases p with h' | ⟨x, h'⟩
  · rw [h'] at hj
    rw [← hj] at hs
    simp at hs
  · apply h
    rw [← hj, h']
    exact ⟨x, by simp⟩

namespace Fs

/-- `create_parent_directories` on a path with a directory part, no component of which is a file. -/
theorem createParent_ok {fs : Fs} (hok : fs.Ok) {p : Str} (hp : '/' ∈ p)
    (hfile : ∀ f ∈ fs.files.keys, ¬ f <+: fs.resolve (dirname p)) :
    ∃ fs1, fs.createParentDirectories p = .ok fs1 ∧ fs1.Ok ∧ fs1.files = fs.files ∧ fs1.cwd = fs.cwd ∧
      fs.resolve (dirname p) ∈ fs1.dirs ∧ (∀ d ∈ fs.dirs, d ∈ fs1.dirs) ∧
      ∀ d ∈ fs1.dirs, d ∈ fs.dirs ∨ d <+: fs.resolve (dirname p) := by
  have hne : dirname p ≠ [] := fun h => ((pathSplit_spec p).2.2.2.1 h).1 hp
  unfold createParentDirectories
  by_cases hex : fs.exists_ (dirname p) = true
  · rw [if_pos hex]
    refine ⟨fs, rfl, hok, rfl, rfl, ?_, fun d hd => hd, fun d hd => Or.inl hd⟩
    rcases (exists_of hex).2 with h | h
    · exact h
    · exact absurd List.prefix_rfl (hfile _ h)
  · rw [if_neg hex]
    rw [Bool.not_eq_true] at hex
    obtain ⟨fs1, g1, g2, g3, g4, g5, g6, g7⟩ := makedirs_ok _ fs (dirname p) le_rfl hok hne hex hfile
    exact ⟨fs1, g1, g5, g4, g3, g2, g6, g7⟩

/-- Writing a file into an existing directory. -/
theorem write_succeeds {fs : Fs} {p c : Str} (hp : p ≠ []) (hs : ¬ ['/'] <:+ p) (hd : fs.resolve p ∉ fs.dirs)
    (hpar : (fs.resolve p).dropLast ∈ fs.dirs) :
    ∃ fs', fs.write p c = .ok fs' := by
  unfold write
  rw [if_neg]
  · exact ⟨_, rfl⟩
  · rintro (h | h | h | h)
    · exact hp h
    · apply hs
      rw [List.getLast?_eq_some_iff] at h
      obtain ⟨x, rfl⟩ := h
      exact ⟨x, rfl⟩
    · exact hd h
    · exact h hpar

end Fs
end Dissect
