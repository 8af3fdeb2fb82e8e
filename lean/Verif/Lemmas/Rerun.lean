import Verif.Spec.Rerun
import Verif.Lemmas.CrashSafe

/-! Lemmas: running a sequence of disk operations again after an interruption. -/

namespace Dissect
noncomputable section

/-! ### Consistency of the disk is kept -/

namespace Fs

theorem Ok.prefix {fs : Fs} (h : fs.Ok) {d e : List Str} (he : e ∈ fs.dirs) (hp : d <+: e) : d ∈ fs.dirs := by
  obtain ⟨t, rfl⟩ := hp
  induction t using List.reverseRecOn with
  | nil => simpa using he
  | append_singleton t x ih =>
    apply ih
    have := h.parent _ he
    rwa [← List.append_assoc, List.dropLast_concat] at this

theorem mkdir_success {fs fs' : Fs} (hok : fs.Ok) {p : Str} (h : fs.mkdir p = .ok fs') :
    fs'.Ok ∧ fs'.dirs = fs.resolve p :: fs.dirs ∧ (fs.resolve p).dropLast ∈ fs.dirs := by
  unfold mkdir at h
  split at h
  · cases h
  · rename_i hc
    simp only [not_or, not_not] at hc
    obtain ⟨h1, h2, h3⟩ := hc
    rw [Bool.not_eq_true] at h2
    obtain ⟨n1, n2⟩ := not_exists h1 h2
    obtain ⟨fs'', g1, -, -, g4, g5⟩ := mkdir_ok hok h1 n1 n2 h3
    unfold mkdir at g1
    rw [if_neg (by simp [h1, h2, h3])] at g1
    rw [g1] at h
    injection h with h
    subst h
    exact ⟨g4, g5, h3⟩

theorem makedirs_success {fs : Fs} (hok : fs.Ok) (name : Str) : ∀ {fs' : Fs}, fs.makedirs name = .ok fs' →
    fs'.Ok ∧ name ≠ [] ∧ fs.resolve name ∈ fs'.dirs ∧ (∀ d ∈ fs.dirs, d ∈ fs'.dirs) ∧
      ∀ d ∈ fs'.dirs, d ∈ fs.dirs ∨ d <+: fs.resolve name := by
  induction hn : name.length using Nat.strong_induction_on generalizing name with
  | _ n ih =>
    intro fs' h
    have base : ∀ {fs1 : Fs}, fs1.Ok → fs1.cwd = fs.cwd → (∀ d ∈ fs.dirs, d ∈ fs1.dirs) →
        (∀ d ∈ fs1.dirs, d ∈ fs.dirs ∨ d <+: fs.resolve name) → fs1.mkdir name = .ok fs' →
        fs'.Ok ∧ name ≠ [] ∧ fs.resolve name ∈ fs'.dirs ∧ (∀ d ∈ fs.dirs, d ∈ fs'.dirs) ∧
          ∀ d ∈ fs'.dirs, d ∈ fs.dirs ∨ d <+: fs.resolve name := by
      intro fs1 o1 o2 o3 o4 hm
      obtain ⟨m1, m2, m3⟩ := mkdir_success o1 hm
      have hr : fs1.resolve name = fs.resolve name := resolve_cwd o2 name
      rw [hr] at m2
      refine ⟨m1, ?_, by rw [m2]; exact List.mem_cons_self, fun d hd => by rw [m2]; exact List.mem_cons_of_mem _ (o3 d hd), ?_⟩
      · rintro rfl
        simp [mkdir] at hm
      · intro d hd
        rw [m2] at hd
        rcases List.mem_cons.1 hd with rfl | hd
        · exact Or.inr List.prefix_rfl
        · exact o4 d hd
    rw [makedirs] at h
    split at h
    · rename_i hc
      split at h
      · cases h
      · rename_i fs1 h1
        obtain ⟨g1, g2, g3, g4, g5⟩ := ih _ (by rw [← hn]; exact makedirsSplit_lt name hc.2.1) _ rfl h1
        have hne : name ≠ [] := by
          rintro rfl
          simp [makedirsSplit, pathSplit] at hc
        obtain ⟨a1, a2, a3, a4, a5⟩ := makedirsSplit_spec name hne
        have hres := resolve_split fs a2 a3 a4
        have hpre : fs.resolve (makedirsSplit name).1 <+: fs.resolve name := ⟨_, hres.symm⟩
        have o4 : ∀ d ∈ fs1.dirs, d ∈ fs.dirs ∨ d <+: fs.resolve name := by
          intro d hd
          rcases g5 d hd with h | h
          · exact Or.inl h
          · exact Or.inr (h.trans hpre)
        split at h
        · rename_i hdot
          injection h with h
          subst h
          have hsame : fs.resolve name = fs.resolve (makedirsSplit name).1 := by
            rw [hres, pathComps_noslash a1, if_pos (Or.inr hdot), List.append_nil]
          exact ⟨g1, hne, by rw [hsame]; exact g3, g4, o4⟩
        · exact base g1 (makedirs_files _ le_rfl h1).2 g4 o4 h
    · exact base hok rfl (fun _ h => h) (fun _ h => Or.inl h) h

theorem write_success {fs fs' : Fs} (hok : fs.Ok) {p c : Str} (h : fs.write p c = .ok fs') :
    fs'.Ok ∧ ¬ ['/'] <:+ p ∧ fs.resolve p ∉ fs.dirs ∧ (fs.resolve p).dropLast ∈ fs.dirs := by
  obtain ⟨w1, w2, w3, w4⟩ := write_ok h
  unfold write at h
  split at h
  · cases h
  · rename_i hc
    simp only [not_or, not_not] at hc
    obtain ⟨-, h2, h3, h4⟩ := hc
    have hkeys : ∀ f ∈ fs'.files.keys, f = fs.resolve p ∨ f ∈ fs.files.keys := by
      intro f hf
      obtain ⟨v, hv⟩ := Dict.mem_keys_iff.1 hf
      rw [w4] at hv
      split at hv
      · exact Or.inl ‹_›
      · exact Or.inr (Dict.mem_keys_iff.2 ⟨v, hv⟩)
    refine ⟨⟨by rw [w2]; exact hok.root, by rw [w1, w2]; exact hok.cwd, by rw [w2]; exact hok.parent, ?_, ?_⟩, ?_, h3, h4⟩
    · intro f hf
      rw [w2]
      rcases hkeys f hf with rfl | hf
      · exact h4
      · exact hok.fileParent f hf
    · intro f hf
      rw [w2]
      rcases hkeys f hf with rfl | hf
      · exact h3
      · exact hok.disjoint f hf
    · rintro ⟨x, rfl⟩
      simp at h2

end Fs

/-! ### Sequences of operations -/

/-- The effects a script has on the disk: parent directories are made, a file is written, a log is opened. -/
inductive DOp
  | parent (p : Str)
  | write (p c : Str)
  | touch (p : Str)

/-- One operation. -/
def opR : DOp → Fs → Run PyErr
  | .parent p, fs => createParentR fs p
  | .write p c, fs => writeR fs p (.ok c)
  | .touch p, fs => match fs.read p with
    | .ok _ => .done fs
    | .error _ => writeR fs p (.ok [])

/-- The operations one after the other. -/
def opsR : List DOp → Fs → Run PyErr
  | [], fs => .done fs
  | o :: os, fs => (opR o fs).andThen (opsR os)

/-- The node that an operation (over)writes. -/
def DOp.Writes (fs : Fs) (n : List Str) : DOp → Prop
  | .write p _ => n = fs.resolve p
  | _ => False

/-- The node that an operation creates if it does not exist. -/
def DOp.Touches (fs : Fs) (n : List Str) : DOp → Prop
  | .touch p => n = fs.resolve p
  | _ => False

/-- What is known about a disk that an operation may have led to. -/
structure Grown (h g : Fs) : Prop where
  ok : g.Ok
  cwd : g.cwd = h.cwd
  dirs : ∀ d ∈ h.dirs, d ∈ g.dirs
  keys : ∀ n ∈ h.files.keys, n ∈ g.files.keys

theorem Grown.refl {h : Fs} (hok : h.Ok) : Grown h h := ⟨hok, rfl, fun _ h => h, fun _ h => h⟩

theorem Grown.trans {h g k : Fs} (h1 : Grown h g) (h2 : Grown g k) : Grown h k :=
  ⟨h2.ok, h2.cwd.trans h1.cwd, fun d hd => h2.dirs d (h1.dirs d hd), fun n hn => h2.keys n (h1.keys n hn)⟩

theorem Grown.write {h g : Fs} (hok : h.Ok) {p c : Str} (hw : h.write p c = .ok g) : Grown h g := by
  obtain ⟨w1, w2, w3, w4⟩ := Fs.write_ok hw
  refine ⟨(Fs.write_success hok hw).1, w1, by rw [w2]; exact fun _ h => h, ?_⟩
  intro n hn
  obtain ⟨v, hv⟩ := Dict.mem_keys_iff.1 hn
  rw [Dict.mem_keys_iff, w4]
  split
  · exact ⟨c, rfl⟩
  · exact ⟨v, hv⟩

/-- `Grown`, and the files are the same. -/
def GrownDirs (h g : Fs) : Prop := Grown h g ∧ g.files = h.files

theorem GrownDirs.refl {h : Fs} (hok : h.Ok) : GrownDirs h h := ⟨.refl hok, rfl⟩

theorem mkdirR_grown {h : Fs} (hok : h.Ok) {p : Str} {g : Fs} (hg : h.mkdir p = .ok g) : GrownDirs h g := by
  obtain ⟨m1, m2, -⟩ := Fs.mkdir_success hok hg
  obtain ⟨f1, f2⟩ := Fs.mkdir_files hg
  exact ⟨⟨m1, f2, fun d hd => by rw [m2]; exact List.mem_cons_of_mem _ hd, by rw [f1]; exact fun _ h => h⟩, f1⟩

theorem makedirsR_seen (name : Str) : ∀ {h : Fs}, h.Ok → (makedirsR h name).seen h ∧
    (∀ g, (makedirsR h name).seen g → GrownDirs h g ∧ ∀ h1, (makedirsR h name).out = .ok h1 → ∀ d ∈ g.dirs, d ∈ h1.dirs) ∧
    ∀ h1, (makedirsR h name).out = .ok h1 → GrownDirs h h1 := by
  induction hn : name.length using Nat.strong_induction_on generalizing name with
  | _ n ih =>
    intro h hok
    have mk : ∀ {k : Fs}, k.Ok → (∀ g, (mkdirR k name).seen g → GrownDirs k g ∧
        ∀ h1, (mkdirR k name).out = .ok h1 → ∀ d ∈ g.dirs, d ∈ h1.dirs) ∧
        ∀ h1, (mkdirR k name).out = .ok h1 → GrownDirs k h1 := by
      intro k hk
      refine ⟨?_, fun h1 hh => mkdirR_grown hk hh⟩
      rintro g (rfl | hg)
      · exact ⟨.refl hk, fun h1 hh => (mkdirR_grown hk hh).1.dirs⟩
      · refine ⟨mkdirR_grown hk hg, fun h1 hh => ?_⟩
        have hh : k.mkdir name = .ok h1 := hh
        rw [hg] at hh
        injection hh with hh
        subst hh
        exact fun _ h => h
    unfold makedirsR
    split
    · rename_i hc
      obtain ⟨i0, i1, i2⟩ := ih _ (by rw [← hn]; exact Fs.makedirsSplit_lt name hc.2.1) (Fs.makedirsSplit name).1 rfl hok
      refine ⟨Or.inl i0, ?_, ?_⟩
      · rintro g (hg | ⟨fs1, ho, hg⟩)
        · obtain ⟨j1, j2⟩ := i1 g hg
          refine ⟨j1, fun h1 hh d hd => ?_⟩
          obtain ⟨fs1, k1, k2⟩ := except_bind_ok hh
          have hd' := j2 fs1 k1 d hd
          split at k2
          · injection k2 with k2; subst k2; exact hd'
          · exact ((mk (i2 fs1 k1).1.ok).2 h1 k2).1.dirs d hd'
        · have i2' := i2 fs1 ho
          have hgrow : GrownDirs fs1 g ∧ ∀ h1, (if (Fs.makedirsSplit name).2 = ['.'] then (Run.done fs1 : Run PyErr)
              else mkdirR fs1 name).out = .ok h1 → ∀ d ∈ g.dirs, d ∈ h1.dirs := by
            split at hg
            · rename_i hdot
              obtain rfl := hg
              refine ⟨.refl i2'.1.ok, fun h1 hh => ?_⟩
              rw [if_pos hdot] at hh
              injection hh with hh; subst hh; exact fun _ h => h
            · rename_i hdot
              rw [if_neg hdot]
              exact (mk i2'.1.ok).1 g hg
          refine ⟨⟨i2'.1.trans hgrow.1.1, hgrow.1.2.trans i2'.2⟩, fun h1 hh => ?_⟩
          obtain ⟨fs2, k1, k2⟩ := except_bind_ok hh
          rw [ho] at k1
          injection k1 with k1
          subst k1
          exact hgrow.2 h1 k2
      · intro h1 hh
        obtain ⟨fs1, k1, k2⟩ := except_bind_ok hh
        have i2' := i2 fs1 k1
        split at k2
        · injection k2 with k2; subst k2; exact i2'
        · have := (mk i2'.1.ok).2 h1 k2
          exact ⟨i2'.1.trans this.1, this.2.trans i2'.2⟩
    · exact ⟨Or.inl rfl, (mk hok).1, (mk hok).2⟩

theorem createParentR_seen (p : Str) {h : Fs} (hok : h.Ok) : (createParentR h p).seen h ∧
    (∀ g, (createParentR h p).seen g → GrownDirs h g ∧ ∀ h1, (createParentR h p).out = .ok h1 → ∀ d ∈ g.dirs, d ∈ h1.dirs) ∧
    ∀ h1, (createParentR h p).out = .ok h1 → GrownDirs h h1 := by
  unfold createParentR
  split
  · refine ⟨rfl, ?_, ?_⟩
    · rintro g rfl
      refine ⟨.refl hok, fun h1 hh => ?_⟩
      injection hh with hh; subst hh; exact fun _ h => h
    · intro h1 hh
      injection hh with hh; subst hh; exact .refl hok
  · exact makedirsR_seen _ hok

/-- Every operation lets the disk grow, and starts from where it is. -/
theorem opR_grown (o : DOp) {h : Fs} (hok : h.Ok) : (opR o h).seen h ∧ (∀ g, (opR o h).seen g → Grown h g) ∧
    ∀ h1, (opR o h).out = .ok h1 → Grown h h1 := by
  cases o with
  | parent p =>
    obtain ⟨h0, h1, h2⟩ := createParentR_seen p hok
    exact ⟨h0, fun g hg => (h1 g hg).1.1, fun g hg => (h2 g hg).1⟩
  | write p c =>
    refine ⟨Or.inl rfl, ?_, fun h1 hh => .write hok (writeR_ok.1 hh)⟩
    rintro g (rfl | ⟨t, -, hg⟩)
    · exact .refl hok
    · exact .write hok hg
  | touch p =>
    simp only [opR]
    split
    · exact ⟨rfl, fun g hg => by obtain rfl := hg; exact .refl hok,
        fun h1 hh => by injection hh with hh; subst hh; exact .refl hok⟩
    · refine ⟨Or.inl rfl, ?_, fun h1 hh => .write hok (writeR_ok.1 hh)⟩
      rintro g (rfl | ⟨t, -, hg⟩)
      · exact .refl hok
      · exact .write hok hg

theorem opsR_grown (os : List DOp) : ∀ {h : Fs}, h.Ok → (opsR os h).seen h ∧ (∀ g, (opsR os h).seen g → Grown h g) ∧
    ∀ h1, (opsR os h).out = .ok h1 → Grown h h1 := by
  induction os with
  | nil =>
    intro h hok
    exact ⟨rfl, fun g hg => by obtain rfl := hg; exact .refl hok,
      fun h1 hh => by injection hh with hh; subst hh; exact .refl hok⟩
  | cons o os ih =>
    intro h hok
    obtain ⟨o0, o1, o2⟩ := opR_grown o hok
    refine ⟨Or.inl o0, ?_, ?_⟩
    · rintro g (hg | ⟨h1, hh, hg⟩)
      · exact o1 g hg
      · exact (o2 h1 hh).trans ((ih (o2 h1 hh).ok).2.1 g hg)
    · intro g hg
      obtain ⟨h1, k1, k2⟩ := except_bind_ok hg
      exact (o2 h1 k1).trans ((ih (o2 h1 k1).ok).2.2 g k2)

/-! ### Lockstep -/

/-- The disk `k` of the second run compared with the disk `h` of the uninterrupted run, which will end in `F` after the
operations `os`. -/
structure Lock (F : Fs) (os : List DOp) (h k : Fs) : Prop where
  hF : Grown h F
  hk : Grown h k
  kdirs : ∀ d ∈ k.dirs, d ∈ F.dirs
  kkeys : ∀ n ∈ k.files.keys, n ∈ F.files.keys
  files : ∀ n, k.files.get? n = h.files.get? n ∨ (∃ o ∈ os, o.Writes F n) ∨
    ((∃ o ∈ os, o.Touches F n) ∧ k.files.get? n = some [] ∧ h.files.get? n = none)

theorem exists_mono {h k : Fs} (hk : Grown h k) {p : Str} (he : h.exists_ p = true) : k.exists_ p = true := by
  obtain ⟨h1, h2⟩ := Fs.exists_of he
  unfold Fs.exists_
  rw [decide_eq_true_eq, Fs.resolve_cwd hk.cwd]
  refine ⟨h1, ?_⟩
  rcases h2 with h2 | h2
  · exact Or.inl (hk.dirs _ h2)
  · right
    unfold Dict.contains
    simpa using hk.keys _ h2

/-- The next operation on the disk of the second run. -/
theorem lock_step {F : Fs} {o : DOp} {os : List DOp} {h h1 k : Fs} (hok : h.Ok) (hh : (opR o h).out = .ok h1)
    (hF : Grown h1 F) (L : Lock F (o :: os) h k) : ∃ k1, (opR o k).out = .ok k1 ∧ Lock F os h1 k1 := by
  have hc : k.cwd = h.cwd := L.hk.cwd
  have hFc : F.cwd = h.cwd := L.hF.cwd
  cases o with
  | parent p =>
    have hh : (createParentR h p).out = .ok h1 := hh
    have hfiles : ∀ n, (k.files.get? n = h.files.get? n ∨ (∃ o ∈ os, o.Writes F n) ∨
        ((∃ o ∈ os, o.Touches F n) ∧ k.files.get? n = some [] ∧ h.files.get? n = none)) := by
      intro n
      rcases L.files n with h | ⟨o, ho, hw⟩ | ⟨⟨o, ho, hw⟩, h2⟩
      · exact Or.inl h
      · rcases List.mem_cons.1 ho with rfl | ho
        · exact hw.elim
        · exact Or.inr (Or.inl ⟨o, ho, hw⟩)
      · rcases List.mem_cons.1 ho with rfl | ho
        · exact hw.elim
        · exact Or.inr (Or.inr ⟨⟨o, ho, hw⟩, h2⟩)
    have hgrow := ((createParentR_seen p hok).2.2 h1 hh).1
    have hf1 := ((createParentR_seen p hok).2.2 h1 hh).2
    rw [createParentR_out] at hh
    show ∃ k1, (createParentR k p).out = .ok k1 ∧ _
    rw [createParentR_out]
    unfold Fs.createParentDirectories at hh
    by_cases he : h.exists_ (dirname p) = true
    · rw [if_pos he] at hh
      injection hh with hh
      subst hh
      refine ⟨k, ?_, L.hF, L.hk, L.kdirs, L.kkeys, hfiles⟩
      unfold Fs.createParentDirectories
      rw [if_pos (exists_mono L.hk he)]
    · rw [if_neg he] at hh
      obtain ⟨-, m2, m3, m4, m5⟩ := Fs.makedirs_success hok _ hh
      have hD : h.resolve (dirname p) ∈ F.dirs := hF.dirs _ m3
      have hrk : k.resolve (dirname p) = h.resolve (dirname p) := Fs.resolve_cwd hc _
      -- the directory on the disk of the second run
      have key : ∃ k1, k.createParentDirectories p = .ok k1 ∧ k1.Ok ∧ k1.cwd = k.cwd ∧ k1.files = k.files ∧
          h.resolve (dirname p) ∈ k1.dirs ∧ (∀ d ∈ k.dirs, d ∈ k1.dirs) ∧
          ∀ d ∈ k1.dirs, d ∈ k.dirs ∨ d <+: h.resolve (dirname p) := by
        unfold Fs.createParentDirectories
        by_cases hk : k.exists_ (dirname p) = true
        · rw [if_pos hk]
          refine ⟨k, rfl, L.hk.ok, rfl, rfl, ?_, fun _ h => h, fun _ h => Or.inl h⟩
          rcases (Fs.exists_of hk).2 with h | h
          · rwa [hrk] at h
          · rw [hrk] at h
            exact absurd hD (hF.ok.disjoint _ (L.kkeys _ h))
        · rw [if_neg hk]
          rw [Bool.not_eq_true] at hk
          obtain ⟨k1, g1, g2, g3, g4, g5, g6, g7⟩ := Fs.makedirs_ok _ k (dirname p) le_rfl L.hk.ok m2 hk (by
            intro f hf hp
            rw [hrk] at hp
            exact hF.ok.disjoint f (L.kkeys f hf) (hF.ok.prefix hD hp))
          rw [hrk] at g2 g7
          exact ⟨k1, g1, g5, g3, g4, g2, g6, g7⟩
      obtain ⟨k1, g1, g2, g3, g4, g5, g6, g7⟩ := key
      refine ⟨k1, g1, hF, ⟨g2, ?_, ?_, ?_⟩, ?_, ?_, ?_⟩
      · rw [g3, hc, hgrow.cwd]
      · intro d hd
        rcases m5 d hd with hd | hd
        · exact g6 d (L.hk.dirs d hd)
        · exact g2.prefix g5 hd
      · rw [hf1, g4]; exact L.hk.keys
      · intro d hd
        rcases g7 d hd with hd | hd
        · exact L.kdirs d hd
        · exact hF.ok.prefix hD hd
      · rw [g4]; exact L.kkeys
      · intro n
        rw [hf1, g4]
        exact hfiles n
  | write p c =>
    have hh : h.write p c = .ok h1 := writeR_ok.1 hh
    obtain ⟨w1, w2, w3, w4⟩ := Fs.write_ok hh
    obtain ⟨-, s2, s3, s4⟩ := Fs.write_success hok hh
    have hr : k.resolve p = h.resolve p := Fs.resolve_cwd hc p
    have hrF : F.resolve p = h.resolve p := Fs.resolve_cwd hFc p
    have hkey : h.resolve p ∈ F.files.keys := hF.keys _ (Dict.mem_keys_iff.2 ⟨c, by rw [w4, if_pos rfl]⟩)
    obtain ⟨k1, hk1⟩ := Fs.write_succeeds (fs := k) (p := p) (c := c) w3 s2
      (by rw [hr]; exact fun h => hF.ok.disjoint _ hkey (L.kdirs _ h)) (by rw [hr]; exact L.hk.dirs _ s4)
    obtain ⟨v1, v2, v3, v4⟩ := Fs.write_ok hk1
    rw [hr] at v4
    refine ⟨k1, writeR_ok.2 hk1, hF, ⟨(Fs.write_success L.hk.ok hk1).1, by rw [v1, hc, w1], by rw [v2, w2]; exact L.hk.dirs, ?_⟩,
      by rw [v2]; exact L.kdirs, ?_, ?_⟩
    · intro n hn
      obtain ⟨v, hv⟩ := Dict.mem_keys_iff.1 hn
      rw [Dict.mem_keys_iff, v4]
      rw [w4] at hv
      split
      · exact ⟨c, rfl⟩
      · rw [if_neg ‹_›] at hv
        exact Dict.mem_keys_iff.1 (L.hk.keys n (Dict.mem_keys_iff.2 ⟨v, hv⟩))
    · intro n hn
      obtain ⟨v, hv⟩ := Dict.mem_keys_iff.1 hn
      rw [v4] at hv
      split at hv
      · rename_i hn; rw [hn]; exact hkey
      · exact L.kkeys n (Dict.mem_keys_iff.2 ⟨v, hv⟩)
    · intro n
      rw [v4, w4]
      split
      · exact Or.inl rfl
      · rename_i hne
        rcases L.files n with h | ⟨o, ho, hw⟩ | ⟨⟨o, ho, hw⟩, h2⟩
        · exact Or.inl h
        · rcases List.mem_cons.1 ho with rfl | ho
          · exact absurd (hw.trans hrF) hne
          · exact Or.inr (Or.inl ⟨o, ho, hw⟩)
        · rcases List.mem_cons.1 ho with rfl | ho
          · exact hw.elim
          · exact Or.inr (Or.inr ⟨⟨o, ho, hw⟩, h2⟩)
  | touch p =>
    have hr : k.resolve p = h.resolve p := Fs.resolve_cwd hc p
    have hrF : F.resolve p = h.resolve p := Fs.resolve_cwd hFc p
    have hread : ∀ (g : Fs) {c : Str}, g.read p = .ok c ↔ p ≠ [] ∧ g.files.get? (g.resolve p) = some c := by
      intro g c
      unfold Fs.read
      split
      · simp_all
      · split <;> simp_all
    cases hrd : h.read p with
    | ok c =>
      simp only [opR, hrd] at hh
      injection hh with hh
      subst hh
      obtain ⟨r1, r2⟩ := (hread h).1 hrd
      obtain ⟨v, hv⟩ := Dict.mem_keys_iff.1 (L.hk.keys _ (Dict.mem_keys_iff.2 ⟨c, r2⟩))
      have hkr : k.read p = .ok v := (hread k).2 ⟨r1, by rw [hr]; exact hv⟩
      refine ⟨k, by simp only [opR, hkr]; rfl, hF, L.hk, L.kdirs, L.kkeys, ?_⟩
      intro n
      rcases L.files n with h | ⟨o, ho, hw⟩ | ⟨⟨o, ho, hw⟩, h2, h3⟩
      · exact Or.inl h
      · rcases List.mem_cons.1 ho with rfl | ho
        · exact hw.elim
        · exact Or.inr (Or.inl ⟨o, ho, hw⟩)
      · rcases List.mem_cons.1 ho with rfl | ho
        · have : n = h.resolve p := hw.trans hrF
          rw [this, r2] at h3
          cases h3
        · exact Or.inr (Or.inr ⟨⟨o, ho, hw⟩, h2, h3⟩)
    | error e =>
      simp only [opR, hrd] at hh
      have hh : h.write p [] = .ok h1 := writeR_ok.1 hh
      obtain ⟨w1, w2, w3, w4⟩ := Fs.write_ok hh
      obtain ⟨-, s2, s3, s4⟩ := Fs.write_success hok hh
      have hnone : h.files.get? (h.resolve p) = none := by
        cases hx : h.files.get? (h.resolve p) with
        | none => rfl
        | some c =>
          rw [(hread h).2 ⟨w3, hx⟩] at hrd
          cases hrd
      have hkey : h.resolve p ∈ F.files.keys := hF.keys _ (Dict.mem_keys_iff.2 ⟨[], by rw [w4, if_pos rfl]⟩)
      cases hkrd : k.read p with
      | ok v =>
        obtain ⟨-, r2⟩ := (hread k).1 hkrd
        rw [hr] at r2
        refine ⟨k, by simp only [opR, hkrd]; rfl, hF, ⟨L.hk.ok, by rw [hc, w1], by rw [w2]; exact L.hk.dirs, ?_⟩, L.kdirs,
          L.kkeys, ?_⟩
        · intro n hn
          obtain ⟨x, hx⟩ := Dict.mem_keys_iff.1 hn
          rw [w4] at hx
          split at hx
          · rename_i hn; rw [hn]; exact Dict.mem_keys_iff.2 ⟨v, r2⟩
          · exact L.hk.keys n (Dict.mem_keys_iff.2 ⟨x, hx⟩)
        · intro n
          rw [w4]
          split
          · rename_i hn
            subst hn
            rcases L.files (h.resolve p) with h | ⟨o, ho, hw⟩ | ⟨-, h2, -⟩
            · rw [r2, hnone] at h; cases h
            · rcases List.mem_cons.1 ho with rfl | ho
              · exact hw.elim
              · exact Or.inr (Or.inl ⟨o, ho, hw⟩)
            · exact Or.inl h2
          · rename_i hne
            rcases L.files n with h | ⟨o, ho, hw⟩ | ⟨⟨o, ho, hw⟩, h2, h3⟩
            · exact Or.inl h
            · rcases List.mem_cons.1 ho with rfl | ho
              · exact hw.elim
              · exact Or.inr (Or.inl ⟨o, ho, hw⟩)
            · rcases List.mem_cons.1 ho with rfl | ho
              · exact absurd (hw.trans hrF) hne
              · exact Or.inr (Or.inr ⟨⟨o, ho, hw⟩, h2, h3⟩)
      | error e' =>
        obtain ⟨k1, hk1⟩ := Fs.write_succeeds (fs := k) (p := p) (c := []) w3 s2
          (by rw [hr]; exact fun h => hF.ok.disjoint _ hkey (L.kdirs _ h)) (by rw [hr]; exact L.hk.dirs _ s4)
        obtain ⟨v1, v2, v3, v4⟩ := Fs.write_ok hk1
        rw [hr] at v4
        refine ⟨k1, by simp only [opR, hkrd]; exact writeR_ok.2 hk1, hF, ⟨(Fs.write_success L.hk.ok hk1).1, by rw [v1, hc, w1],
          by rw [v2, w2]; exact L.hk.dirs, ?_⟩, by rw [v2]; exact L.kdirs, ?_, ?_⟩
        · intro n hn
          obtain ⟨v, hv⟩ := Dict.mem_keys_iff.1 hn
          rw [Dict.mem_keys_iff, v4]
          rw [w4] at hv
          split
          · exact ⟨_, rfl⟩
          · rw [if_neg ‹_›] at hv
            exact Dict.mem_keys_iff.1 (L.hk.keys n (Dict.mem_keys_iff.2 ⟨v, hv⟩))
        · intro n hn
          obtain ⟨v, hv⟩ := Dict.mem_keys_iff.1 hn
          rw [v4] at hv
          split at hv
          · rename_i hn; rw [hn]; exact hkey
          · exact L.kkeys n (Dict.mem_keys_iff.2 ⟨v, hv⟩)
        · intro n
          rw [v4, w4]
          split
          · exact Or.inl rfl
          · rename_i hne
            rcases L.files n with h | ⟨o, ho, hw⟩ | ⟨⟨o, ho, hw⟩, h2, h3⟩
            · exact Or.inl h
            · rcases List.mem_cons.1 ho with rfl | ho
              · exact hw.elim
              · exact Or.inr (Or.inl ⟨o, ho, hw⟩)
            · rcases List.mem_cons.1 ho with rfl | ho
              · exact absurd (hw.trans hrF) hne
              · exact Or.inr (Or.inr ⟨⟨o, ho, hw⟩, h2, h3⟩)

/-- The remaining operations. -/
theorem lock_run {F : Fs} : ∀ (os : List DOp) {h k : Fs}, h.Ok → (opsR os h).out = .ok F → Lock F os h k →
    ∃ k', (opsR os k).out = .ok k' ∧ SameDisk k' F := by
  intro os
  induction os with
  | nil =>
    intro h k hok hh L
    injection hh with hh
    subst hh
    refine ⟨k, rfl, L.hk.cwd, fun d => ⟨L.kdirs d, L.hk.dirs d⟩, fun n => ?_⟩
    rcases L.files n with h | ⟨o, ho, -⟩ | ⟨⟨o, ho, -⟩, -⟩
    · exact h
    · cases ho
    · cases ho
  | cons o os ih =>
    intro h k hok hh L
    obtain ⟨h1, e1, e2⟩ := except_bind_ok hh
    have g1 := (opR_grown o hok).2.2 h1 e1
    obtain ⟨k1, e3, L1⟩ := lock_step hok e1 ((opsR_grown os g1.ok).2.2 F e2) L
    obtain ⟨k', e4, e5⟩ := ih g1.ok e2 L1
    refine ⟨k', ?_, e5⟩
    show (opR o k).out.bind _ = _
    rw [e3]
    exact e4

/-- A disk on which the operations were interrupted. -/
theorem lock_seen {F : Fs} : ∀ (os : List DOp) {h g : Fs}, h.Ok → (opsR os h).out = .ok F → (opsR os h).seen g →
    Lock F os h g := by
  intro os
  induction os with
  | nil =>
    intro h g hok hh hg
    injection hh with hh
    subst hh
    obtain rfl := hg
    exact ⟨.refl hok, .refl hok, fun _ h => h, fun _ h => h, fun _ => Or.inl rfl⟩
  | cons o os ih =>
    intro h g hok hh hg
    have hF := (opsR_grown (o :: os) hok).2.2 F hh
    have hgg := (opsR_grown (o :: os) hok).2.1 g hg
    obtain ⟨h1, e1, e2⟩ := except_bind_ok hh
    have g1 := (opR_grown o hok).2.2 h1 e1
    have hF1 := (opsR_grown os g1.ok).2.2 F e2
    rcases hg with hg | ⟨h1', e1', hg⟩
    · -- during the first operation
      cases o with
      | parent p =>
        obtain ⟨-, s1, s2⟩ := createParentR_seen p hok
        obtain ⟨t1, t2⟩ := s1 g hg
        refine ⟨hF, hgg, fun d hd => hF1.dirs d (t2 h1 e1 d hd), ?_, fun n => Or.inl (by rw [t1.2])⟩
        rw [t1.2]; exact hF.keys
      | write p c =>
        rcases hg with rfl | ⟨t, -, hw⟩
        · exact ⟨hF, hgg, hF.dirs, hF.keys, fun _ => Or.inl rfl⟩
        · obtain ⟨w1, w2, w3, w4⟩ := Fs.write_ok hw
          obtain ⟨v1, v2, v3, v4⟩ := Fs.write_ok (show h.write p c = .ok h1 from writeR_ok.1 e1)
          refine ⟨hF, hgg, by rw [w2]; exact hF.dirs, ?_, ?_⟩
          · intro n hn
            obtain ⟨v, hv⟩ := Dict.mem_keys_iff.1 hn
            rw [w4] at hv
            split at hv
            · rename_i hn
              exact hF1.keys n (Dict.mem_keys_iff.2 ⟨c, by rw [v4, if_pos hn]⟩)
            · exact hF.keys n (Dict.mem_keys_iff.2 ⟨v, hv⟩)
          · intro n
            rw [w4]
            split
            · rename_i hn
              exact Or.inr (Or.inl ⟨_, List.mem_cons_self, hn.trans (Fs.resolve_cwd hF.cwd p).symm⟩)
            · exact Or.inl rfl
      | touch p =>
        cases hrd : h.read p with
        | ok c =>
          simp only [opR, hrd] at hg
          obtain rfl := hg
          exact ⟨hF, hgg, hF.dirs, hF.keys, fun _ => Or.inl rfl⟩
        | error e =>
          simp only [opR, hrd] at hg e1
          rcases hg with rfl | ⟨t, ht, hw⟩
          · exact ⟨hF, hgg, hF.dirs, hF.keys, fun _ => Or.inl rfl⟩
          · obtain rfl : t = [] := List.prefix_nil.1 (ht [] rfl)
            have : g = h1 := by
              have e1 : h.write p [] = .ok h1 := writeR_ok.1 e1
              rw [hw] at e1
              injection e1
            subst this
            obtain ⟨w1, w2, w3, w4⟩ := Fs.write_ok hw
            refine ⟨hF, hgg, hF1.dirs, hF1.keys, fun n => ?_⟩
            rw [w4]
            split
            · rename_i hn
              refine Or.inr (Or.inr ⟨⟨_, List.mem_cons_self, hn.trans (Fs.resolve_cwd hF.cwd p).symm⟩, rfl, ?_⟩)
              subst hn
              unfold Fs.read at hrd
              rw [if_neg w3] at hrd
              split at hrd
              · cases hrd
              · assumption
            · exact Or.inl rfl
    · -- later
      rw [e1] at e1'
      injection e1' with e1'
      subst e1'
      have L := ih g1.ok e2 hg
      refine ⟨hF, hgg, L.kdirs, L.kkeys, fun n => ?_⟩
      have hlater : (g.files.get? n = h1.files.get? n) ∨ (∃ o' ∈ o :: os, o'.Writes F n) ∨
          ((∃ o' ∈ o :: os, o'.Touches F n) ∧ g.files.get? n = some [] ∧ h1.files.get? n = none) := by
        rcases L.files n with h | ⟨o', ho, hw⟩ | ⟨⟨o', ho, hw⟩, h2⟩
        · exact Or.inl h
        · exact Or.inr (Or.inl ⟨o', List.mem_cons_of_mem _ ho, hw⟩)
        · exact Or.inr (Or.inr ⟨⟨o', List.mem_cons_of_mem _ ho, hw⟩, h2⟩)
      have hnone : h1.files.get? n = none → h.files.get? n = none := by
        intro hn
        cases hx : h.files.get? n with
        | none => rfl
        | some v =>
          obtain ⟨w, hw⟩ := Dict.mem_keys_iff.1 (g1.keys n (Dict.mem_keys_iff.2 ⟨v, hx⟩))
          rw [hn] at hw
          cases hw
      rcases hlater with hl | hl | ⟨h1', h2', h3'⟩
      · -- the first operation may have changed the file
        cases o with
        | parent p =>
          have := ((createParentR_seen p hok).2.2 h1 e1).2
          rw [this] at hl
          exact Or.inl hl
        | write p c =>
          obtain ⟨v1, v2, v3, v4⟩ := Fs.write_ok (show h.write p c = .ok h1 from writeR_ok.1 e1)
          rw [v4] at hl
          split at hl
          · rename_i hn
            exact Or.inr (Or.inl ⟨_, List.mem_cons_self, hn.trans (Fs.resolve_cwd hF.cwd p).symm⟩)
          · exact Or.inl hl
        | touch p =>
          cases hrd : h.read p with
          | ok c =>
            simp only [opR, hrd] at e1
            injection e1 with e1
            subst e1
            exact Or.inl hl
          | error e =>
            simp only [opR, hrd] at e1
            obtain ⟨w1, w2, w3, w4⟩ := Fs.write_ok (show h.write p [] = .ok h1 from writeR_ok.1 e1)
            rw [w4] at hl
            split at hl
            · rename_i hn
              refine Or.inr (Or.inr ⟨⟨_, List.mem_cons_self, hn.trans (Fs.resolve_cwd hF.cwd p).symm⟩, hl, ?_⟩)
              subst hn
              unfold Fs.read at hrd
              rw [if_neg w3] at hrd
              split at hrd
              · cases hrd
              · assumption
            · exact Or.inl hl
      · exact Or.inr (Or.inl hl)
      · exact Or.inr (Or.inr ⟨h1', h2', hnone h3'⟩)

end
end Dissect
