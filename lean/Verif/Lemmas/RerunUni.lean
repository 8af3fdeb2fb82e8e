import Verif.Lemmas.Rerun
import Verif.Lemmas.Main

/-! Lemmas: a script whose computations depend on its inputs only performs a fixed sequence of disk operations. -/

namespace Dissect
noncomputable section
variable {ε : Type} {fs0 : Fs} {O : List Str → Prop}

/-- The disks that differ from `fs0` in outputs (and directories leading to outputs) only. -/
structure Near (fs0 : Fs) (O : List Str → Prop) (h : Fs) : Prop where
  cwd : h.cwd = fs0.cwd
  files : ∀ n, ¬ O n → h.files.get? n = fs0.files.get? n
  up : ∀ d ∈ fs0.dirs, d ∈ h.dirs
  dirs : ∀ d ∈ h.dirs, d ∈ fs0.dirs ∨ ∃ n, O n ∧ d <+: n
  children : ∀ d, (∀ n, O n → ¬ d <+: n) → h.children d = fs0.children d

theorem Near.refl (fs : Fs) : Near fs O fs :=
  ⟨rfl, fun _ _ => rfl, fun _ h => h, fun _ h => Or.inl h, fun _ _ => rfl⟩

theorem Near.read {h : Fs} (hh : Near fs0 O h) {p : Str} (hp : ¬ O (fs0.resolve p)) : h.read p = fs0.read p :=
  read_congr hh.1 (hh.2 _ hp)

theorem Near.exists_ {h : Fs} (hh : Near fs0 O h) {p : Str} (hp : ∀ n, O n → ¬ fs0.resolve p <+: n) :
    h.exists_ p = fs0.exists_ p := by
  unfold Fs.exists_ Dict.contains
  rw [Fs.resolve_cwd hh.cwd p]
  have h1 : fs0.resolve p ∈ h.dirs ↔ fs0.resolve p ∈ fs0.dirs := by
    refine ⟨fun hd => ?_, hh.up _⟩
    rcases hh.dirs _ hd with hd | ⟨n, hn, hp'⟩
    · exact hd
    · exact absurd hp' (hp n hn)
  have h2 : fs0.resolve p ∈ h.files.keys ↔ fs0.resolve p ∈ fs0.files.keys := by
    rw [Dict.mem_keys_iff, Dict.mem_keys_iff, hh.files _ (fun ho => hp _ ho List.prefix_rfl)]
  simp only [decide_eq_true_eq, h1, h2]

theorem Near.listdir {h : Fs} (hh : Near fs0 O h) {order : List Str → List Str} {p : Str}
    (hp : ∀ n, O n → ¬ fs0.resolve p <+: n) : h.listdir order p = fs0.listdir order p := by
  have h1 : fs0.resolve p ∈ h.dirs ↔ fs0.resolve p ∈ fs0.dirs := by
    refine ⟨fun hd => ?_, hh.up _⟩
    rcases hh.dirs _ hd with hd | ⟨n, hn, hp'⟩
    · exact hd
    · exact absurd hp' (hp n hn)
  unfold Fs.listdir
  rw [Fs.resolve_cwd hh.cwd p, hh.children _ hp]
  simp only [h1]

/-! ### The names in a directory -/

theorem mkdir_children {h g : Fs} {p : Str} (hg : h.mkdir p = .ok g) {d : List Str} (hd : ¬ d <+: h.resolve p) :
    g.children d = h.children d := by
  unfold Fs.mkdir at hg
  split at hg
  · cases hg
  · injection hg with hg
    subst hg
    unfold Fs.children
    simp only [List.cons_append]
    rw [List.filter_cons_of_neg]
    rw [decide_eq_true_eq]
    rintro ⟨-, rfl⟩
    exact hd (List.dropLast_prefix _)

theorem filter_setEntries {κ β : Type} [DecidableEq κ] (k : κ) (v : β) (q : κ → Bool) (hq : q k = false) (l : List (κ × β)) :
    ((Dict.setEntries k v l).map Prod.fst).filter q = (l.map Prod.fst).filter q := by
  induction l with
  | nil => simp [Dict.setEntries, hq]
  | cons e es ih =>
    unfold Dict.setEntries
    split
    · rename_i h
      simp [h, hq]
    · simp only [List.map_cons, List.filter_cons, ih]

theorem write_children {h g : Fs} {p c : Str} (hg : h.write p c = .ok g) {d : List Str} (hd : ¬ d <+: h.resolve p) :
    g.children d = h.children d := by
  unfold Fs.write at hg
  split at hg
  · cases hg
  · injection hg with hg
    subst hg
    unfold Fs.children
    simp only [List.filter_append, List.filterMap_append]
    congr 2
    unfold Dict.keys Dict.set
    apply filter_setEntries
    rw [decide_eq_false_iff_not]
    rintro ⟨-, rfl⟩
    exact hd (List.dropLast_prefix _)

theorem makedirsR_last (name : Str) : ∀ {h g : Fs}, (makedirsR h name).out = .ok g → (makedirsR h name).seen g := by
  intro h g hg
  unfold makedirsR at hg ⊢
  split at hg
  · obtain ⟨h1, e1, e2⟩ := except_bind_ok hg
    rename_i hc
    rw [dif_pos hc]
    refine Or.inr ⟨h1, e1, ?_⟩
    dsimp only
    split at e2
    · rename_i hdot
      rw [if_pos hdot]
      injection e2 with e2; exact e2.symm
    · rename_i hdot
      rw [if_neg hdot]
      exact Or.inr e2
  · rename_i hc
    rw [dif_neg hc]
    exact Or.inr hg

theorem makedirsR_children (name : Str) {d : List Str} : ∀ {h : Fs}, h.Ok → ¬ d <+: h.resolve name →
    ∀ g, (makedirsR h name).seen g → g.children d = h.children d := by
  induction hn : name.length using Nat.strong_induction_on generalizing name with
  | _ n ih =>
    intro h hok hd g hg
    have mk : ∀ {k : Fs}, k.cwd = h.cwd → (mkdirR k name).seen g → g.children d = k.children d := by
      rintro k hc (rfl | hg)
      · rfl
      · exact mkdir_children hg (by rw [Fs.resolve_cwd hc]; exact hd)
    unfold makedirsR at hg
    split at hg
    · rename_i hc
      have hne : name ≠ [] := by
        rintro rfl
        simp [Fs.makedirsSplit, pathSplit] at hc
      obtain ⟨a1, a2, a3, a4, a5⟩ := makedirsSplit_spec name hne
      have hpre : h.resolve (Fs.makedirsSplit name).1 <+: h.resolve name := ⟨_, (Fs.resolve_split h a2 a3 a4).symm⟩
      have ih' := ih _ (by rw [← hn]; exact Fs.makedirsSplit_lt name hc.2.1) (Fs.makedirsSplit name).1 rfl hok
        (fun hp => hd (hp.trans hpre))
      rcases hg with hg | ⟨fs1, ho, hg⟩
      · exact ih' g hg
      · have gr := (makedirsR_seen (Fs.makedirsSplit name).1 hok).2.2 fs1 ho
        rw [← ih' fs1 (makedirsR_last _ ho)]
        split at hg
        · obtain rfl := hg; rfl
        · exact mk gr.1.cwd hg
    · exact mk rfl hg

theorem createParentR_children (p : Str) {h : Fs} (hok : h.Ok) {g : Fs} (hg : (createParentR h p).seen g) {d : List Str}
    (hd : ¬ d <+: h.resolve (dirname p)) : g.children d = h.children d := by
  unfold createParentR at hg
  split at hg
  · obtain rfl := hg; rfl
  · exact makedirsR_children _ hok hd g hg

theorem createParentR_last (p : Str) {h g : Fs} (hg : (createParentR h p).out = .ok g) : (createParentR h p).seen g := by
  unfold createParentR at hg ⊢
  split at hg
  · rename_i hc
    rw [if_pos hc]
    injection hg with hg; exact hg.symm
  · rename_i hc
    rw [if_neg hc]
    exact makedirsR_last _ hg

/-! ### The directories that are made -/

theorem dirname_prefix (fs : Fs) (p : Str) : fs.resolve (dirname p) <+: fs.resolve p := by
  obtain ⟨a1, a2, a3, a4, a5, a6⟩ := pathSplit_spec p
  have := Fs.resolve_split fs a2 a3 (fun h => by
    have hn := (a4 h).1
    cases p with
    | nil => rfl
    | cons c p =>
      unfold isAbs
      have : c ≠ '/' := by
        rintro rfl
        exact hn List.mem_cons_self
      simpa using this)
  exact ⟨_, this.symm⟩

theorem dirname_append (p : Str) {e : Str} (he : '/' ∉ e) : dirname (p ++ e) = dirname p := by
  have h : ((p ++ e).reverse.dropWhile (fun c => decide (c ≠ '/'))) = p.reverse.dropWhile (fun c => decide (c ≠ '/')) := by
    rw [List.reverse_append, List.dropWhile_append_of_pos]
    intro c hc
    rw [decide_eq_true_eq]
    rintro rfl
    exact he (List.mem_reverse.1 hc)
  unfold dirname pathSplit
  simp only [h]
  split <;> rfl

theorem makedirsR_dirs (name : Str) : ∀ {h : Fs}, h.Ok →
    ∀ g, (makedirsR h name).seen g → ∀ d ∈ g.dirs, d ∈ h.dirs ∨ d <+: h.resolve name := by
  induction hn : name.length using Nat.strong_induction_on generalizing name with
  | _ n ih =>
    intro h hok g hg d hd
    have mk : ∀ {k : Fs}, k.Ok → k.cwd = h.cwd → (mkdirR k name).seen g → d ∈ k.dirs ∨ d <+: h.resolve name := by
      rintro k hk hc (rfl | hg)
      · exact Or.inl hd
      · rw [(Fs.mkdir_success hk hg).2.1, Fs.resolve_cwd hc] at hd
        rcases List.mem_cons.1 hd with rfl | hd
        · exact Or.inr List.prefix_rfl
        · exact Or.inl hd
    unfold makedirsR at hg
    split at hg
    · rename_i hc
      have hne : name ≠ [] := by
        rintro rfl
        simp [Fs.makedirsSplit, pathSplit] at hc
      obtain ⟨a1, a2, a3, a4, a5⟩ := makedirsSplit_spec name hne
      have hpre : h.resolve (Fs.makedirsSplit name).1 <+: h.resolve name := ⟨_, (Fs.resolve_split h a2 a3 a4).symm⟩
      rcases hg with hg | ⟨fs1, ho, hg⟩
      · rcases ih _ (by rw [← hn]; exact Fs.makedirsSplit_lt name hc.2.1) _ rfl hok g hg d hd with h1 | h1
        · exact Or.inl h1
        · exact Or.inr (h1.trans hpre)
      · have gr := (makedirsR_seen (Fs.makedirsSplit name).1 hok).2.2 fs1 ho
        have s1 : ∀ d ∈ fs1.dirs, d ∈ h.dirs ∨ d <+: h.resolve name := by
          intro d hd
          rw [makedirsR_out] at ho
          rcases (Fs.makedirs_success hok _ ho).2.2.2.2 d hd with h1 | h1
          · exact Or.inl h1
          · exact Or.inr (h1.trans hpre)
        have : d ∈ fs1.dirs ∨ d <+: h.resolve name := by
          split at hg
          · obtain rfl := hg; exact Or.inl hd
          · exact mk gr.1.ok gr.1.cwd hg
        rcases this with h1 | h1
        · exact s1 d h1
        · exact Or.inr h1
    · exact mk hok rfl hg

theorem createParentR_dirs (p : Str) {h : Fs} (hok : h.Ok) {g : Fs} (hg : (createParentR h p).seen g) :
    ∀ d ∈ g.dirs, d ∈ h.dirs ∨ d <+: h.resolve (dirname p) := by
  unfold createParentR at hg
  split at hg
  · obtain rfl := hg; exact fun d hd => Or.inl hd
  · exact makedirsR_dirs _ hok g hg

theorem createParentR_out_dirs (p : Str) {h : Fs} (hok : h.Ok) {g : Fs} (hg : (createParentR h p).out = .ok g) :
    ∀ d ∈ g.dirs, d ∈ h.dirs ∨ d <+: h.resolve (dirname p) := by
  unfold createParentR at hg
  split at hg
  · injection hg with hg; subst hg; exact fun d hd => Or.inl hd
  · rw [makedirsR_out] at hg
    exact (Fs.makedirs_success hok _ hg).2.2.2.2

/-- On every such disk the program performs the operations `os`. -/
structure Does (fs0 : Fs) (O : List Str → Prop) (r : Fs → Run ε) (os : List DOp) : Prop where
  out : ∀ h, Near fs0 O h → h.Ok → ∀ g, (r h).out = .ok g ↔ (opsR os h).out = .ok g
  seen : ∀ h, Near fs0 O h → h.Ok → ∀ g, (r h).seen g → (opsR os h).seen g

/-- An operation writes outputs, and makes directories for outputs. -/
def DOp.For (fs0 : Fs) (O : List Str → Prop) : DOp → Prop
  | .parent p => ∃ n, O n ∧ fs0.resolve (dirname p) <+: n
  | .write p _ => O (fs0.resolve p)
  | .touch p => O (fs0.resolve p)

/-- All operations do. -/
def Only (fs0 : Fs) (O : List Str → Prop) (os : List DOp) : Prop := ∀ o ∈ os, o.For fs0 O

theorem opR_near {o : DOp} (ho : o.For fs0 O) {h : Fs} (hok : h.Ok) (hh : Near fs0 O h) :
    (∀ g, (opR o h).seen g → Near fs0 O g) ∧ ∀ g, (opR o h).out = .ok g → Near fs0 O g := by
  have hw : ∀ {p c : Str} {g : Fs}, O (fs0.resolve p) → h.write p c = .ok g → Near fs0 O g := by
    intro p c g hp hw
    obtain ⟨w1, w2, w3, w4⟩ := Fs.write_ok hw
    refine ⟨w1.trans hh.1, fun n hn => ?_, by rw [w2]; exact hh.up, by rw [w2]; exact hh.dirs, fun d hd => ?_⟩
    swap
    · rw [← hh.children d hd]
      exact write_children hw (by rw [Fs.resolve_cwd hh.1]; exact hd _ hp)
    rw [w4, Fs.resolve_cwd hh.1, if_neg]
    · exact hh.2 n hn
    · rintro rfl; exact hn hp
  cases o with
  | parent p =>
    obtain ⟨-, s1, s2⟩ := createParentR_seen p hok
    obtain ⟨m, hm, hpre⟩ := ho
    have hd : ∀ {g : Fs}, (∀ d ∈ g.dirs, d ∈ h.dirs ∨ d <+: h.resolve (dirname p)) →
        ∀ d ∈ g.dirs, d ∈ fs0.dirs ∨ ∃ n, O n ∧ d <+: n := by
      intro g hg d hd
      rcases hg d hd with h1 | h1
      · exact hh.dirs d h1
      · rw [Fs.resolve_cwd hh.cwd] at h1
        exact Or.inr ⟨m, hm, h1.trans hpre⟩
    refine ⟨fun g hg => ?_, fun g hg => ?_⟩
    · obtain ⟨⟨t1, t2⟩, -⟩ := s1 g hg
      exact ⟨t1.cwd.trans hh.1, fun n hn => by rw [t2]; exact hh.2 n hn, fun d h1 => t1.dirs d (hh.up d h1),
        hd (createParentR_dirs p hok hg), fun d hd => by
          rw [← hh.children d hd]
          exact createParentR_children p hok hg (by
            rw [Fs.resolve_cwd hh.cwd]; exact fun hp => hd m hm (hp.trans hpre))⟩
    · obtain ⟨t1, t2⟩ := s2 g hg
      exact ⟨t1.cwd.trans hh.1, fun n hn => by rw [t2]; exact hh.2 n hn, fun d h1 => t1.dirs d (hh.up d h1),
        hd (createParentR_out_dirs p hok hg), fun d hd => by
          rw [← hh.children d hd]
          exact createParentR_children p hok (createParentR_last p hg) (by
            rw [Fs.resolve_cwd hh.cwd]; exact fun hp => hd m hm (hp.trans hpre))⟩
  | write p c =>
    have hp : O (fs0.resolve p) := ho
    refine ⟨?_, fun g hg => hw hp (writeR_ok.1 hg)⟩
    rintro g (rfl | ⟨t, -, hg⟩)
    · exact hh
    · exact hw hp hg
  | touch p =>
    have hp : O (fs0.resolve p) := ho
    simp only [opR]
    split
    · exact ⟨fun g hg => by obtain rfl := hg; exact hh, fun g hg => by injection hg with hg; subst hg; exact hh⟩
    · refine ⟨?_, fun g hg => hw hp (writeR_ok.1 hg)⟩
      rintro g (rfl | ⟨t, -, hg⟩)
      · exact hh
      · exact hw hp hg

theorem opsR_near {os : List DOp} (ho : Only fs0 O os) : ∀ {h : Fs}, h.Ok → Near fs0 O h →
    (∀ g, (opsR os h).seen g → Near fs0 O g) ∧ ∀ g, (opsR os h).out = .ok g → Near fs0 O g := by
  induction os with
  | nil =>
    intro h hok hh
    exact ⟨fun g hg => by obtain rfl := hg; exact hh, fun g hg => by injection hg with hg; subst hg; exact hh⟩
  | cons o os ih =>
    intro h hok hh
    obtain ⟨o1, o2⟩ := opR_near (ho o List.mem_cons_self) hok hh
    have ih' := fun {h1 : Fs} (a : h1.Ok) (b : Near fs0 O h1) =>
      ih (fun o' ho' => ho o' (List.mem_cons_of_mem _ ho')) a b
    refine ⟨?_, ?_⟩
    · rintro g (hg | ⟨h1, hh1, hg⟩)
      · exact o1 g hg
      · exact (ih' ((opR_grown o hok).2.2 h1 hh1).ok (o2 h1 hh1)).1 g hg
    · intro g hg
      obtain ⟨h1, k1, k2⟩ := except_bind_ok hg
      exact (ih' ((opR_grown o hok).2.2 h1 k1).ok (o2 h1 k1)).2 g k2

theorem makedirsR_self (name : Str) : ∀ h : Fs, (makedirsR h name).seen h := by
  induction hn : name.length using Nat.strong_induction_on generalizing name with
  | _ n ih =>
    intro h
    unfold makedirsR
    split
    · rename_i hc
      exact Or.inl (ih _ (by rw [← hn]; exact Fs.makedirsSplit_lt name hc.2.1) _ rfl h)
    · exact Or.inl rfl

theorem opR_self (o : DOp) (h : Fs) : (opR o h).seen h := by
  cases o with
  | parent p =>
    simp only [opR]
    unfold createParentR
    split
    · rfl
    · exact makedirsR_self _ _
  | write p c => exact Or.inl rfl
  | touch p =>
    simp only [opR]
    split
    · rfl
    · exact Or.inl rfl

theorem opsR_append (os os' : List DOp) : ∀ h : Fs,
    (∀ g, (opsR (os ++ os') h).out = .ok g ↔ ∃ h1, (opsR os h).out = .ok h1 ∧ (opsR os' h1).out = .ok g) ∧
    (∀ g, (opsR os h).seen g → (opsR (os ++ os') h).seen g) ∧
    (∀ h1 g, (opsR os h).out = .ok h1 → (opsR os' h1).seen g → (opsR (os ++ os') h).seen g) := by
  induction os with
  | nil =>
    intro h
    refine ⟨fun g => ⟨fun hg => ⟨h, rfl, hg⟩, ?_⟩, ?_, ?_⟩
    · rintro ⟨h1, e, hg⟩
      injection e with e; subst e; exact hg
    · rintro g hg
      have hg : g = h := hg
      subst hg
      cases os' with
      | nil => rfl
      | cons o os' => exact Or.inl (opR_self o g)
    · intro h1 g e hg
      injection e with e; subst e; exact hg
  | cons o os ih =>
    intro h
    refine ⟨fun g => ⟨fun hg => ?_, ?_⟩, ?_, ?_⟩
    · obtain ⟨h1, k1, k2⟩ := except_bind_ok hg
      obtain ⟨h2, k3, k4⟩ := ((ih h1).1 g).1 k2
      refine ⟨h2, ?_, k4⟩
      show (opR o h).out.bind _ = _
      rw [k1]; exact k3
    · rintro ⟨h2, e, hg⟩
      obtain ⟨h1, k1, k2⟩ := except_bind_ok e
      show (opR o h).out.bind _ = _
      rw [k1]
      exact ((ih h1).1 g).2 ⟨h2, k2, hg⟩
    · rintro g (hg | ⟨h1, k1, hg⟩)
      · exact Or.inl hg
      · exact Or.inr ⟨h1, k1, (ih h1).2.1 g hg⟩
    · intro h2 g e hg
      obtain ⟨h1, k1, k2⟩ := except_bind_ok e
      exact Or.inr ⟨h1, k1, (ih h1).2.2 h2 g k2 hg⟩

/-- Whenever the program succeeds on some such disk, it performs the same operations on all of them. -/
def Uni (fs0 : Fs) (O : List Str → Prop) (r : Fs → Run ε) : Prop :=
  ∀ h0 h1, Near fs0 O h0 → h0.Ok → (r h0).out = .ok h1 → ∃ os, Only fs0 O os ∧ Does fs0 O r os

/-- Such a program can be restarted. -/
theorem Uni.restartable {r : Fs → Run ε} (hr : Uni fs0 O r) (hok : fs0.Ok) : Restartable r fs0 := by
  intro fs' g ho hg
  obtain ⟨os, h1, h2⟩ := hr fs0 fs' (Near.refl fs0) hok ho
  have ho' := (h2.out fs0 (Near.refl fs0) hok fs').1 ho
  have hg' := h2.seen fs0 (Near.refl fs0) hok g hg
  have hgn := (opsR_near h1 hok (Near.refl fs0)).1 g hg'
  have L := lock_seen os hok ho' hg'
  obtain ⟨g', k1, k2⟩ := lock_run os hok ho' L
  exact ⟨g', (h2.out g hgn L.hk.ok g').2 k1, k2⟩

namespace Uni

theorem done : Uni fs0 O (fun h => (Run.done h : Run ε)) := by
  intro h0 h1 _ _ _
  refine ⟨[], (fun o ho => by cases ho), ⟨fun h _ _ g => ?_, fun h _ _ g hg => hg⟩⟩
  constructor <;> (intro hg; injection hg with hg; subst hg; rfl)

theorem fail {e : ε} : Uni fs0 O (fun h => (Run.fail h e : Run ε)) := by
  intro h0 h1 _ _ h
  cases h

theorem andThen {r k : Fs → Run ε} (hr : Uni fs0 O r) (hk : Uni fs0 O k) : Uni fs0 O (fun h => (r h).andThen k) := by
  intro h0 h1 hn hok h
  obtain ⟨h2, e1, e2⟩ := except_bind_ok h
  obtain ⟨os, o1, o2⟩ := hr h0 h2 hn hok e1
  have near : ∀ h, Near fs0 O h → h.Ok → ∀ g, (opsR os h).out = .ok g → Near fs0 O g ∧ g.Ok := fun h a b g c =>
    ⟨(opsR_near o1 b a).2 g c, ((opsR_grown os b).2.2 g c).ok⟩
  obtain ⟨n2, ok2⟩ := near h0 hn hok h2 ((o2.out h0 hn hok h2).1 e1)
  obtain ⟨os', p1, p2⟩ := hk h2 h1 n2 ok2 e2
  refine ⟨os ++ os', ?_, ⟨fun h a b g => ?_, fun h a b g hg => ?_⟩⟩
  · intro o ho
    rcases List.mem_append.1 ho with ho | ho
    · exact o1 o ho
    · exact p1 o ho
  · rw [(opsR_append os os' h).1 g]
    constructor
    · intro hg
      obtain ⟨h3, e3, e4⟩ := except_bind_ok hg
      have e3' := (o2.out h a b h3).1 e3
      obtain ⟨a', b'⟩ := near h a b h3 e3'
      exact ⟨h3, e3', (p2.out h3 a' b' g).1 e4⟩
    · rintro ⟨h3, e3, e4⟩
      obtain ⟨a', b'⟩ := near h a b h3 e3
      show (r h).out.bind _ = _
      rw [(o2.out h a b h3).2 e3]
      exact (p2.out h3 a' b' g).2 e4
  · rcases hg with hg | ⟨h3, e3, hg⟩
    · exact (opsR_append os os' h).2.1 g (o2.seen h a b g hg)
    · have e3' := (o2.out h a b h3).1 e3
      obtain ⟨a', b'⟩ := near h a b h3 e3'
      exact (opsR_append os os' h).2.2 h3 g e3' (p2.seen h3 a' b' g hg)

theorem compute {α : Type} {x : Fs → Except ε α} {k : α → Fs → Run ε} (hx : ∀ h, Near fs0 O h → x h = x fs0)
    (hk : ∀ a, x fs0 = .ok a → Uni fs0 O (k a)) : Uni fs0 O (fun h => Run.compute h (x h) (fun a => k a h)) := by
  intro h0 h1 hn hok h
  obtain ⟨a, e1, e2⟩ := except_bind_ok h
  have e1' : x fs0 = .ok a := by rw [← hx h0 hn]; exact e1
  obtain ⟨os, o1, o2⟩ := hk a e1' h0 h1 hn hok e2
  refine ⟨os, o1, ⟨fun h a' b g => ?_, fun h a' b g hg => ?_⟩⟩
  · rw [← o2.out h a' b g]
    show ((x h).bind fun a => (k a h).out) = _ ↔ _
    rw [hx h a', e1']
    rfl
  · rcases hg with rfl | ⟨a2, e3, hg⟩
    · exact (opsR_grown os b).1
    · rw [hx h a', e1'] at e3
      injection e3 with e3
      subst e3
      exact o2.seen h a' b g hg

theorem parent' {p : Str} {m : List Str} (hm : O m) (hp : fs0.resolve (dirname p) <+: m) :
    Uni fs0 O (fun h => createParentR h p) := by
  intro h0 h1 _ _ _
  refine ⟨[.parent p], ?_, ⟨fun h _ _ g => ?_, fun h _ _ g hg => Or.inl hg⟩⟩
  · intro o ho
    rw [List.mem_singleton] at ho
    subst ho
    exact ⟨m, hm, hp⟩
  · show _ ↔ ((createParentR h p).out.bind fun h => .ok h) = _
    cases (createParentR h p).out <;> rfl

theorem parent {p : Str} (hp : O (fs0.resolve p)) : Uni fs0 O (fun h => createParentR h p) :=
  parent' hp (dirname_prefix fs0 p)

theorem write {p : Str} {txt : Fs → Py Str} (hp : O (fs0.resolve p)) (hx : ∀ h, Near fs0 O h → txt h = txt fs0) :
    Uni fs0 O (fun h => writeR h p (txt h)) := by
  intro h0 h1 hn _ h
  obtain ⟨c, e1, -⟩ := Fs.writeText_ok.1 (show h0.writeText p (txt h0) = .ok h1 from h)
  rw [hx h0 hn] at e1
  refine ⟨[.write p c], ?_, ⟨fun h a _ g => ?_, fun h a _ g hg => Or.inl ?_⟩⟩
  · intro o ho
    rw [List.mem_singleton] at ho
    subst ho
    exact hp
  · show h.writeText p (txt h) = _ ↔ ((h.writeText p (.ok c)).bind fun h => .ok h) = _
    rw [hx h a, e1]
    cases h.writeText p (.ok c) <;> rfl
  · rw [hx h a, e1] at hg
    exact hg

theorem touch {p : Str} (hp : O (fs0.resolve p)) : Uni fs0 O (fun h => opR (.touch p) h) := by
  intro h0 h1 hn _ h
  refine ⟨[.touch p], ?_, ⟨fun h a _ g => ?_, fun h a _ g hg => Or.inl hg⟩⟩
  · intro o ho
    rw [List.mem_singleton] at ho
    subst ho
    exact hp
  · show _ ↔ ((opR (.touch p) h).out.bind fun h => .ok h) = _
    cases (opR (.touch p) h).out <;> rfl

theorem lift {r : Fs → Run PyErr} (hr : Uni fs0 O r) : Uni fs0 O (fun h => (r h).lift) := by
  intro h0 h1 hn hok h
  obtain ⟨os, o1, o2⟩ := hr h0 h1 hn hok (lift_ok.1 h)
  exact ⟨os, o1, ⟨fun h a b g => by rw [← o2.out h a b g]; exact lift_ok, o2.seen⟩⟩

theorem forR {α : Type} {f : ℕ → α → Fs → Run PyErr} : ∀ (xs : List α) (i : ℕ), (∀ j x, x ∈ xs → Uni fs0 O (f j x)) →
    Uni fs0 O (forR f i xs) := by
  intro xs
  induction xs with
  | nil => intro i _; exact done
  | cons x xs ih =>
    intro i h
    exact andThen (h i x List.mem_cons_self) (ih (i + 1) (fun j y hy => h j y (List.mem_cons_of_mem _ hy)))

theorem save {c p : Str} (hp : O (fs0.resolve p)) : Uni fs0 O (fun h => saveR h c p) :=
  andThen (parent hp) (write hp (fun _ _ => rfl))

theorem exportMatrixR {io : NumIO} {s : Space Str} {store : Csr ℝ} {pre : Str} {format : Option Str}
    (ho : ∀ n, FileOf fs0 pre n → O n) : Uni fs0 O (fun h => exportMatrixR io h s store pre format) := by
  unfold Dissect.exportMatrixR
  split
  · exact done
  · split
    · exact write (ho _ ⟨fmtDm, by decide, rfl⟩) (fun _ _ => rfl)
    · split
      · split
        · exact fail
        · exact write (ho _ ⟨fmtSm, by decide, rfl⟩) (fun _ _ => rfl)
      · exact fail

theorem exportR {io : NumIO} {s : Space Str} {store : Csr ℝ} {pre : Str} {format : Option Str}
    (ho : ∀ n, FileOf fs0 pre n → O n) : Uni fs0 O (fun h => exportR io h s store pre format) := by
  have hr : O (fs0.resolve (withExt pre cs!"rows")) := ho _ ⟨cs!"rows", by decide, rfl⟩
  have hp : fs0.resolve (dirname pre) <+: fs0.resolve (withExt pre cs!"rows") := by
    have := dirname_prefix fs0 (withExt pre cs!"rows")
    unfold withExt at this ⊢
    rwa [List.append_assoc, dirname_append pre (by decide), ← List.append_assoc] at this
  refine andThen (parent' hr hp) (andThen (exportMatrixR ho) ?_)
  unfold exportRowColumnR
  refine andThen (r := fun h => if s.col2id.len ≠ 0 then writeR h (withExt pre ['c', 'o', 'l', 's'])
    (.ok (printList s.id2col)) else .done h) ?_ (write (ho _ ⟨cs!"rows", by decide, rfl⟩) (fun _ _ => rfl))
  split
  · exact write (ho _ ⟨cs!"cols", by decide, rfl⟩) (fun _ _ => rfl)
  · exact done

theorem printR {L : Lib} {s : Space Str} {file : Str} {outFormat : Option Str} (ho : ∀ n, FileOf fs0 file n → O n) :
    Uni fs0 O (fun h => printR L h s file outFormat) := by
  refine andThen (r := fun h => saveR h (L.dump (.space s)) (file ++ cs!".pkl"))
    (k := fun h => exportOptR L h s file outFormat) (save (ho _ ⟨cs!"pkl", by decide, ?_⟩)) ?_
  · rw [List.append_assoc]; rfl
  · unfold exportOptR
    split
    · exact done
    · exact exportR ho

theorem configLogging {log : Option Str} (ho : ∀ f, log = some f → O (fs0.resolve f)) :
    Uni fs0 O (fun h => configLoggingR h log) := by
  unfold configLoggingR
  split
  · exact done
  · rename_i f
    refine andThen (parent (ho f rfl)) ?_
    have := touch (fs0 := fs0) (O := O) (p := f) (ho f rfl)
    exact this

end Uni
end
end Dissect
