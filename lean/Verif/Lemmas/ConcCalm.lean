import Verif.Lemmas.ConcTrace
import Verif.Props.ConcSave

/-! # The scripts do not look at the files they write -/

namespace Dissect
noncomputable section
open Prog

variable {α β : Type} {o : Fs} {U : List Str → Prop}

/-- A file that can be written, and that nobody looks at. -/
structure Target (o : Fs) (U : List Str → Prop) (p : Str) : Prop where
  saveable : Saveable o p
  u : U (o.resolve p)
  dir : ¬ U (o.resolve (dirname p))

namespace Prog.Calm

theorem ret (a : α) {cur : Option (List Str × ℕ)} : Calm o U cur (.ret a) := trivial
theorem raise (e : MainErr) {cur : Option (List Str × ℕ)} : Calm o U cur (.raise e : Prog α) := trivial

theorem ofMain (x : Main α) {cur : Option (List Str × ℕ)} : Calm o U cur (Prog.ofMain x) := by
  cases x <;> trivial

theorem ofPy (x : Py α) {cur : Option (List Str × ℕ)} : Calm o U cur (Prog.ofPy x) := ofMain _

theorem computeM {x : Main α} {Q : α → Prog β} {cur : Option (List Str × ℕ)} (h : ∀ a, x = .ok a → Calm o U cur (Q a)) :
    Calm o U cur ((Prog.ofMain x).bind Q) := by
  cases x with
  | ok a => exact h a rfl
  | error e => trivial

theorem compute {x : Py α} {Q : α → Prog β} {cur : Option (List Str × ℕ)} (h : ∀ a, x = .ok a → Calm o U cur (Q a)) :
    Calm o U cur ((Prog.ofPy x).bind Q) := computeM (fun a ha => h a (lift_ok.1 ha))

theorem need {x : Option α} {Q : α → Prog β} (h : ∀ a, x = some a → Calm o U none (Q a)) :
    Calm o U none ((Prog.ofMain (require x)).bind Q) := computeM (fun a ha => h a (require_ok.1 ha))

theorem read {p : Str} {k : Py Str → Prog α} {cur : Option (List Str × ℕ)} (hp : ¬ U (o.resolve p))
    (h : ∀ r, Calm o U cur (k r)) : Calm o U cur (.read p k) := ⟨hp, h _⟩

theorem stat {p : Str} {k : Bool → Prog α} (hp : ¬ U (o.resolve p)) (h : ∀ r, Calm o U none (k r)) :
    Calm o U none (.stat p k) := ⟨hp, h _⟩

theorem list {p : Str} {k : Py (List Str) → Prog α} (hp : ∀ n, o.resolve p <+: n → ¬ U n) (h : ∀ r, Calm o U none (k r)) :
    Calm o U none (.list p k) :=
  ⟨hp _ (List.prefix_refl _), fun n _ e => hp n (by rw [← e]; exact List.dropLast_prefix n), h _⟩

theorem bind' {P : Prog α} {Q : α → Prog β} (h : Calm o U none P) (hQ : ∀ a, Calm o U none (Q a)) :
    Calm o U none (P.bind Q) := Calm.bind hQ h

end Prog.Calm

theorem createParentP_calm {p : Str} (h : Target o U p) : Calm o U none (createParentP p) := by
  refine ⟨h.dir, ?_⟩
  beta_reduce
  rw [if_pos (saveable_exists h.saveable)]
  trivial

theorem putAll_calm {node : List Str} : ∀ (cs : Str) (off : ℕ), Calm o U (some (node, off)) (putAll node off cs)
  | [], _ => trivial
  | _ :: cs, off => ⟨rfl, putAll_calm cs (off + 1)⟩

theorem openW_calm {p : Str} {k : Py (List Str) → Prog α} (h : Target o U p)
    (hk : Calm o U (some (o.resolve p, 0)) (k (.ok (o.resolve p)))) : Calm o U none (.openW p k) := by
  refine ⟨h.u, ?_⟩
  rw [saveable_open h.saveable]
  exact hk

theorem writeP_calm {p : Str} (h : Target o U p) (txt : Py Str) : Calm o U none (writeP p txt) := by
  unfold writeP
  refine openW_calm h (Calm.compute (fun a ha => ?_))
  injection ha with ha
  subst ha
  exact Calm.compute (fun t _ => putAll_calm t 0)

theorem saveP_calm {p : Str} (h : Target o U p) (txt : Str) : Calm o U none (saveP txt p) :=
  (createParentP_calm h).bind' (fun _ => writeP_calm h _)

/-! ### Reading and exporting spaces -/

theorem readP_calm {p : Str} (h : ¬ U (o.resolve p)) : Calm o U none (readP p) := Calm.read h (fun _ => Calm.ofPy _)

theorem loadSpaceP_calm (L : Lib) {p : Str} (h : ¬ U (o.resolve p)) : Calm o U none (loadSpaceP L p) :=
  Calm.read h (fun _ => Calm.ofPy _)

theorem buildWithP_calm (io : NumIO) {data fmt : Str} {rows cols : Option Str} (hd : ¬ U (o.resolve data))
    (hr : ∀ f, rows = some f → ¬ U (o.resolve f)) (hc : ∀ f, cols = some f → ¬ U (o.resolve f)) :
    Calm o U none (buildWithP io data fmt rows cols) := by
  unfold buildWithP
  refine Calm.bind' ?_ (fun r => Calm.bind' ?_ (fun cc => Calm.bind' ?_ (fun ir => Calm.bind' ?_ (fun m => ?_))))
  · unfold buildRowsP
    cases rows with
    | none => exact Calm.ret _
    | some f => exact (readP_calm (hr f rfl)).bind' (fun _ => Calm.compute (fun _ _ => Calm.ret _))
  · unfold buildColsP
    cases cols with
    | none =>
      simp only
      split
      · exact Calm.raise _
      · exact Calm.ret _
    | some f => exact (readP_calm (hc f rfl)).bind' (fun _ => Calm.compute (fun _ _ => Calm.ret _))
  · unfold rowsOrDataP
    cases r with
    | some x => exact Calm.ret _
    | none => exact (readP_calm hd).bind' (fun _ => Calm.ofPy _)
  · exact (readP_calm hd).bind' (fun _ => Calm.ofPy _)
  · exact Calm.compute (fun _ _ => Calm.ofPy _)

theorem readInputP_calm (L : Lib) {pre fmt : Str} (gz : Bool) (h : ∀ f ∈ Tool.spaceFiles pre fmt, ¬ U (o.resolve f)) :
    Calm o U none (readInputP L pre fmt gz) := by
  unfold readInputP
  split
  · exact Calm.raise _
  · split
    · exact loadSpaceP_calm L (h _ (by simp [Tool.spaceFiles]))
    · have hr : ¬ U (o.resolve (pre ++ cs!".rows")) := h _ (by simp [Tool.spaceFiles])
      have hc : ¬ U (o.resolve (pre ++ cs!".cols")) := h _ (by simp [Tool.spaceFiles])
      refine Calm.bindO (P := .stat (pre ++ cs!".rows") (fun b => .ret (if b then some (pre ++ cs!".rows") else none)))
        (fun rows e => ?_) (Calm.stat hr (fun _ => Calm.ret _))
      refine Calm.bindO (P := .stat (pre ++ cs!".cols") (fun b => .ret (if b then some (pre ++ cs!".cols") else none)))
        (fun cols e' => ?_) (Calm.stat hc (fun _ => Calm.ret _))
      split
      · exact trivial
      · refine buildWithP_calm L.io ?_ ?_ ?_
        · split
          · exact h _ (by simp [Tool.spaceFiles])
          · exact h _ (by simp [Tool.spaceFiles])
        · intro f hf
          have : (Except.ok (if o.exists_ (pre ++ cs!".rows") then some (pre ++ cs!".rows") else none) : Main _) = .ok rows := e
          injection this with h1
          rw [hf] at h1
          split at h1
          · injection h1 with h1; rw [← h1]; exact hr
          · cases h1
        · intro f hf
          have : (Except.ok (if o.exists_ (pre ++ cs!".cols") then some (pre ++ cs!".cols") else none) : Main _) = .ok cols := e'
          injection this with h1
          rw [hf] at h1
          split at h1
          · injection h1 with h1; rw [← h1]; exact hc
          · cases h1

theorem exportP_calm (io : NumIO) (s : Space Str) (store : Csr ℝ) {pre : Str} (format : Option Str)
    (hp : Calm o U none (createParentP pre))
    (h : ∀ e ∈ [cs!"dm", cs!"sm", cs!"rows", cs!"cols"], format ≠ some fmtDm → Target o U (withExt pre e))
    (h' : ∀ e ∈ [cs!"dm", cs!"rows", cs!"cols"], Target o U (withExt pre e)) :
    Calm o U none (exportP io s store pre format) := by
  unfold exportP
  refine hp.bind' (fun _ => Calm.bind' ?_ (fun _ => ?_))
  · unfold exportMatrixP
    cases format with
    | none => exact Calm.ret _
    | some f =>
      simp only
      split
      · exact writeP_calm (h' _ (by simp [fmtDm])) _
      · rename_i hf
        split
        · split
          · exact Calm.raise _
          · exact writeP_calm (h _ (by simp [fmtSm]) (fun e => hf (by injection e))) _
        · exact Calm.raise _
  · unfold exportRowColumnP exportColsP
    refine Calm.bind' ?_ (fun _ => writeP_calm (h' _ (by simp)) _)
    split
    · exact writeP_calm (h' _ (by simp)) _
    · exact Calm.ret _

theorem printP_calm (L : Lib) (s : Space Str) {file : Str} (fmt : Option Str)
    (h : ∀ e ∈ Tool.spaceExts, Target o U (file ++ e)) : Calm o U none (printP L s file fmt) := by
  unfold printP
  have hpkl := h cs!".pkl" (by simp [Tool.spaceExts])
  refine (saveP_calm hpkl _).bind' (fun _ => ?_)
  unfold exportOptP
  cases fmt with
  | none => exact Calm.ret _
  | some f =>
    have hcp : Calm o U none (createParentP file) := by
      have := createParentP_calm hpkl
      unfold createParentP at this ⊢
      rwa [dirname_append file (by decide)] at this
    refine exportP_calm _ _ _ _ hcp ?_ ?_
    · intro e he _
      have : withExt file e = file ++ ('.' :: e) := by simp [withExt]
      rw [this]
      apply h
      simp only [List.mem_cons, List.not_mem_nil, or_false] at he
      rcases he with rfl | rfl | rfl | rfl <;> simp [Tool.spaceExts]
    · intro e he
      have : withExt file e = file ++ ('.' :: e) := by simp [withExt]
      rw [this]
      apply h
      simp only [List.mem_cons, List.not_mem_nil, or_false] at he
      rcases he with rfl | rfl | rfl <;> simp [Tool.spaceExts]

theorem forP_calm {f : ℕ → α → Prog Unit} : ∀ (i : ℕ) (l : List α), (∀ j, ∀ x ∈ l, Calm o U none (f j x)) →
    Calm o U none (forP f i l)
  | _, [], _ => Calm.ret _
  | i, x :: xs, h => (h i x (by simp)).bind' (fun _ => forP_calm (i + 1) xs (fun j y hy => h j y (by simp [hy])))

theorem loadSecondP_calm (L : Lib) {files : List Str} (h : ∀ f ∈ files, ¬ U (o.resolve f)) :
    Calm o U none (loadSecondP L files) := by
  match files with
  | [] => exact Calm.ret _
  | [_] => exact Calm.ret _
  | [_, f] => exact (loadSpaceP_calm L (h f (by simp))).bind' (fun _ => Calm.ret _)
  | _ :: _ :: _ :: _ => exact Calm.ret _

/-! ### The scripts -/

/-- What the runs do not look at (`U`) contains the output files of this run, and nothing it looks at. -/
structure Sharing (o : Fs) (U : List Str → Prop) (sc : Tool) (argv : List Str) (st : Settings) : Prop where
  out' : ∀ p, sc.OutFile st p → Target o U p
  reads : ∀ n, sc.Reads o.cwd argv st n → ¬ U n

section
variable {L : Lib} {argv : List Str} {st : Settings}

theorem Sharing.out {sc : Tool} (h : Sharing o U sc argv st) {nm : Str} (hn : sc.OutName st nm) :
    Target o U ((st cs!"out_dir").strD ++ ['/'] ++ nm) := h.out' _ ⟨nm, hn, rfl⟩

theorem Sharing.file {sc : Tool} (h : Sharing o U sc argv st) {f : Str} (hf : f ∈ sc.inputFiles st) : ¬ U (o.resolve f) :=
  h.reads _ (Or.inr (Or.inr (Or.inl ⟨f, hf, rfl⟩)))

theorem core_calm (h : Sharing o U .core argv st) (gz : Bool) (fmt : Option Str) :
    Calm o U none
      (buildSpacesP L (st cs!"in_file_prefix").strD (st cs!"in_format").strD (st cs!"out_dir").strD fmt
        (st cs!"weightings").asTokens (st cs!"selections").asTokens (st cs!"reductions").asTokens
        (st cs!"normalizations").asTokens gz) := by
  unfold buildSpacesP
  refine (readInputP_calm L gz (fun f hf => h.file hf)).bind' (fun space => ?_)
  refine forP_calm _ _ (fun i w hw => Calm.compute (fun wS _ => ?_))
  refine forP_calm _ _ (fun i s hs => Calm.compute (fun sS _ => ?_))
  refine forP_calm _ _ (fun i r hr => Calm.compute (fun rS _ => ?_))
  refine forP_calm _ _ (fun i n hn => Calm.compute (fun nS _ => ?_))
  refine printP_calm L nS fmt (fun e he => ?_)
  have hk : keptOps [some (coreDescr (st cs!"in_file_prefix").strD), w, s, r, n] =
      (cs!"CORE_SS." ++ lastComp (st cs!"in_file_prefix").strD) :: keptOps [w, s, r, n] := by
    unfold keptOps coreDescr
    show List.filter _ ((cs!"CORE_SS." ++ lastComp (st cs!"in_file_prefix").strD) :: List.filterMap id [w, s, r, n]) = _
    rw [List.filter_cons_of_pos (by simp)]
  have hname : ∃ t, joinStr ['.'] (keptOps [some (coreDescr (st cs!"in_file_prefix").strD), w, s, r, n]) ++ e = 'C' :: t := by
    rw [hk]
    cases keptOps [w, s, r, n] with
    | nil => exact ⟨_, rfl⟩
    | cons x xs => exact ⟨_, rfl⟩
  obtain ⟨t, ht⟩ := hname
  unfold spaceFile
  rw [List.append_assoc, ht]
  refine h.out ?_
  rw [← ht]
  exact ⟨w, hw, s, hs, r, hr, n, hn, e, he, rfl⟩

theorem transformRawP_calm (h : Sharing o U .periph argv st) {raw : Space Str} {fmt : Option Str} {core : Str}
    (hin : ¬ U (o.resolve core))
    (hcore : core = (st cs!"core_space_file").strD ∨
      ∃ d, (st cs!"core_in_dir").asStr = some d ∧ withSlash d <+: core) :
    Calm o U none
      (transformRawP L raw (st cs!"in_file_prefix").strD (st cs!"out_dir").strD fmt core) := by
  unfold transformRawP
  refine (loadSpaceP_calm L hin).bind' (fun co => Calm.compute (fun p _ => ?_))
  refine printP_calm L p fmt (fun e he => ?_)
  rw [show (st cs!"out_dir").strD ++ ['/'] ++ (cs!"PER_SS." ++ lastComp (st cs!"in_file_prefix").strD) ++ ['.'] ++ stem core ++ e =
    (st cs!"out_dir").strD ++ ['/'] ++ 'P' :: (cs!"ER_SS." ++ lastComp (st cs!"in_file_prefix").strD ++ ['.'] ++ stem core ++ e)
    from by simp]
  exact h.out ⟨core, hcore, e, he, rfl⟩

theorem Sharing.inDir {sc : Tool} (h : Sharing o U sc argv st) {d : Str} (hd : sc.inputDir st = some d) (name : Str) :
    ¬ U (o.resolve (withSlash d ++ name)) := by
  refine h.reads _ (Or.inr (Or.inr (Or.inr ⟨d, hd, Or.inr ?_⟩)))
  have hsl : ∃ o, withSlash d = o ++ ['/'] := by
    unfold withSlash
    split
    · rename_i hd
      obtain ⟨l, hl⟩ := List.getLast?_eq_some_iff.1 hd
      exact ⟨l, hl⟩
    · exact ⟨d, rfl⟩
  obtain ⟨x, hx⟩ := hsl
  show nodeOf o.cwd (withSlash d) <+: nodeOf o.cwd (withSlash d ++ name)
  rw [hx, nodeOf_slash]
  exact List.prefix_append _ _

theorem Sharing.below {sc : Tool} (h : Sharing o U sc argv st) {d : Str} (hd : sc.inputDir st = some d) {n : List Str}
    (hn : o.resolve (withSlash d) <+: n) : ¬ U n := h.reads _ (Or.inr (Or.inr (Or.inr ⟨d, hd, Or.inr hn⟩)))

theorem Sharing.dirSelf {sc : Tool} (h : Sharing o U sc argv st) {d : Str} (hd : sc.inputDir st = some d) :
    ¬ U (o.resolve d) := h.reads _ (Or.inr (Or.inr (Or.inr ⟨d, hd, Or.inl rfl⟩)))

theorem listdirP_calm {sc : Tool} (h : Sharing o U sc argv st) {d : Str} (hd : sc.inputDir st = some d)
    (order : List Str → List Str) : Calm o U none (listdirP order (withSlash d)) :=
  Calm.list (fun _ hn => h.below hd hn) (fun _ => Calm.ofPy _)

theorem simMeasureP_calm (h : Sharing o U .sims argv st) {c0 c1 : ℤ} {s : Space Str} {s2 : Option (Space Str)} {m : Str} {files : List Str}
    (hf : files = (st cs!"spaces").asList.getD [] ∨
      ∃ d name, (st cs!"in_dir").asStr = some d ∧ files = [withSlash d ++ name])
    (hm : m ∈ (st cs!"sim_measures").asList.getD []) :
    Calm o U none
      (simMeasureP L (st cs!"in_file").strD c0 c1 (st cs!"out_dir").strD
        (joinStr ['.'] [cs!"SIMS", lastComp (st cs!"in_file").strD, spacesDescr files]) s s2 m) := by
  unfold simMeasureP
  cases simOf m with
  | none => exact Calm.ret _
  | some sim =>
    have hin : ¬ U (o.resolve (st cs!"in_file").strD) :=
      h.file (List.mem_cons_self)
    have hal : Target o U
        ((st cs!"out_dir").strD ++ ['/'] ++ joinStr ['.'] [cs!"SIMS", lastComp (st cs!"in_file").strD, spacesDescr files] ++ ['.'] ++ m) := by
      rw [show (st cs!"out_dir").strD ++ ['/'] ++ joinStr ['.'] [cs!"SIMS", lastComp (st cs!"in_file").strD, spacesDescr files] ++ ['.'] ++ m =
        (st cs!"out_dir").strD ++ ['/'] ++ 'S' :: (cs!"IMS." ++ lastComp (st cs!"in_file").strD ++ ['.'] ++ spacesDescr files ++ ['.'] ++ m)
        from by simp [joinStr]]
      refine h.out ⟨files, hf, m, hm, ?_⟩
      simp [joinStr]
    refine (createParentP_calm hal).bind' (fun _ => (readP_calm hin).bind' (fun _ => ?_))
    refine openW_calm hal (Calm.compute (fun a ha => ?_))
    injection ha with ha
    subst ha
    exact Calm.read hin (fun r => Calm.compute (fun _ _ => Calm.compute (fun t _ => putAll_calm t 0)))

theorem computeSimP_calm (h : Sharing o U .sims argv st) {columns files measures : List Str} (hmeas : measures = (st cs!"sim_measures").asList.getD [])
    (hin : ∀ f ∈ files, ¬ U (o.resolve f))
    (hf : files = (st cs!"spaces").asList.getD [] ∨
      ∃ d name, (st cs!"in_dir").asStr = some d ∧ files = [withSlash d ++ name]) :
    Calm o U none
      (computeSimP L (st cs!"in_file").strD columns (st cs!"out_dir").strD measures files) := by
  subst hmeas
  unfold computeSimP
  refine Calm.compute (fun cc _ => ?_)
  cases files with
  | nil => exact Calm.raise _
  | cons f rest =>
    refine Calm.read (hin f (by simp)) (fun r => ?_)
    split
    · exact Calm.ret _
    · exact Calm.raise _
    · exact (loadSecondP_calm L hin).bind' (fun s2 => forP_calm _ _ (fun _ m hm => simMeasureP_calm h hf hm))

theorem computeNeighboursP_calm (h : Sharing o U .neigh argv st) (n : ℤ) :
    Calm o U none
      (computeNeighboursP L (st cs!"in_file").strD n (st cs!"out_dir").strD (st cs!"sim_measure").strD
        ((st cs!"spaces").asList.getD [])) := by
  unfold computeNeighboursP
  have hfiles : ∀ f ∈ (st cs!"spaces").asList.getD [], ¬ U (o.resolve f) :=
    fun f hf => h.file (List.mem_cons_of_mem _ hf)
  have hin : ¬ U (o.resolve (st cs!"in_file").strD) :=
    h.file (List.mem_cons_self)
  have hal : Target o U
      ((st cs!"out_dir").strD ++ ['/'] ++ joinStr ['.'] [cs!"NEIGHBOURS", lastComp (st cs!"in_file").strD,
        spacesDescr ((st cs!"spaces").asList.getD [])] ++ ['.'] ++ (st cs!"sim_measure").strD) := by
    rw [show (st cs!"out_dir").strD ++ ['/'] ++ joinStr ['.'] [cs!"NEIGHBOURS", lastComp (st cs!"in_file").strD,
        spacesDescr ((st cs!"spaces").asList.getD [])] ++ ['.'] ++ (st cs!"sim_measure").strD =
      (st cs!"out_dir").strD ++ ['/'] ++ 'N' :: (cs!"EIGHBOURS." ++ lastComp (st cs!"in_file").strD ++ ['.'] ++
        spacesDescr ((st cs!"spaces").asList.getD []) ++ ['.'] ++ (st cs!"sim_measure").strD)
      from by simp [joinStr]]
    refine h.out ?_
    show _ = _
    simp [joinStr]
  cases simOf (st cs!"sim_measure").strD with
  | none => exact Calm.raise _
  | some sim =>
    revert hfiles hal
    cases (st cs!"spaces").asList.getD [] with
    | nil => exact fun _ _ => Calm.raise _
    | cons f rest =>
      intro hfiles hal
      refine (loadSpaceP_calm L (hfiles f (by simp))).bind' (fun s => ?_)
      refine (loadSecondP_calm L hfiles).bind' (fun s2 => ?_)
      refine (createParentP_calm hal).bind' (fun _ => (readP_calm hin).bind' (fun _ => Calm.compute (fun ws _ => ?_)))
      exact writeP_calm hal _

theorem evaluateSimP_calm {f : Str} (h : ¬ U (o.resolve f)) (columns measures : List Str) :
    Calm o U none (evaluateSimP L f columns measures) :=
  (Calm.ofPy _).bind' (fun _ => (Calm.read h (fun _ => Calm.ofPy _)).bind
    (fun _ => (Calm.ofPy _).bind' (fun _ => Calm.ofPy _)))

theorem evalLoopP_calm {dir : Str} (h : ∀ name, ¬ U (o.resolve (dir ++ name)))
    (columns measures : List Str) : ∀ names : List Str, Calm o U none (evalLoopP L dir columns measures names)
  | [] => Calm.ret _
  | f :: names => (evaluateSimP_calm (h f) _ _).bind' (fun _ =>
      (evalLoopP_calm h columns measures names).bind' (fun _ => Calm.ret _))

theorem exportModelP_calm (m : PyObj) {file : Str}
    (h : ∀ e ∈ [[], cs!".dm", cs!".rows", cs!".cols"], Target o U (file ++ e)) :
    Calm o U none (exportModelP L m file) := by
  have h0 : Target o U file := by simpa using h [] (by simp)
  have hw : ∀ t : Str, Calm o U none ((createParentP file).bind fun _ => writeP file (.ok t)) :=
    fun t => (createParentP_calm h0).bind' (fun _ => writeP_calm h0 _)
  have hr : Calm o U none ((createParentP file).bind fun _ => (.raise (.raised .illegalStateError) : Prog Unit)) :=
    (createParentP_calm h0).bind' (fun _ => Calm.raise _)
  cases m with
  | composer cc =>
    obtain ⟨k, cols⟩ := cc
    cases k with
    | multiplicative => exact Calm.raise _
    | weighted a b => exact hw _
    | dilation l => exact hw _
    | fullAdditive a b i l =>
      cases a with
      | none => exact hr
      | some a =>
        cases b with
        | none => exact hr
        | some b => exact hw _
  | lexfun m =>
    refine (createParentP_calm h0).bind' (fun _ => ?_)
    cases m.functions with
    | none => exact Calm.raise _
    | some s =>
      refine exportP_calm _ _ _ _ (createParentP_calm h0) (fun e _ hne => absurd rfl hne) (fun e he => ?_)
      have : withExt file e = file ++ ('.' :: e) := by simp [withExt]
      rw [this]
      apply h
      simp only [List.mem_cons, List.not_mem_nil, or_false] at he
      rcases he with rfl | rfl | rfl <;> simp
  | _ => exact Calm.raise _

theorem trainModelP_calm (h : Sharing o U .train argv st) (regression : Option Str) (cv ic : Bool) (param : ParamVal) (range : Option (List ℝ)) (ex : Bool) :
    Calm o U none
      (trainModelP L (st cs!"in_file").strD (st cs!"out_dir").strD (st cs!"model").strD ((st cs!"arg_space").asList.getD [])
        (st cs!"phrase_space").strD regression cv ic param range ex) := by
  have hfiles : ∀ f ∈ (st cs!"arg_space").asList.getD [], ¬ U (o.resolve f) :=
    fun f hf => h.file (List.mem_cons_of_mem _ (List.mem_cons_of_mem _ hf))
  have hin : ¬ U (o.resolve (st cs!"in_file").strD) :=
    h.file (List.mem_cons_self)
  have hph : ¬ U (o.resolve (st cs!"phrase_space").strD) :=
    h.file (List.mem_cons_of_mem _ List.mem_cons_self)
  have hal : ∀ e ∈ [cs!".pkl", cs!".params", cs!".params.dm", cs!".params.rows", cs!".params.cols"],
      Target o U
        ((st cs!"out_dir").strD ++ cs!"/TRAINED_COMP_MODEL" ++ ['.'] ++ (st cs!"model").strD ++ ['.'] ++
          lastComp (st cs!"in_file").strD ++ e) := by
    intro e he
    rw [show (st cs!"out_dir").strD ++ cs!"/TRAINED_COMP_MODEL" ++ ['.'] ++ (st cs!"model").strD ++ ['.'] ++
          lastComp (st cs!"in_file").strD ++ e = (st cs!"out_dir").strD ++ ['/'] ++ 'T' :: (cs!"RAINED_COMP_MODEL." ++
          (st cs!"model").strD ++ ['.'] ++ lastComp (st cs!"in_file").strD ++ e) from by simp]
    exact h.out ⟨e, he, rfl⟩
  unfold trainModelP
  revert hfiles
  cases (st cs!"arg_space").asList.getD [] with
  | nil => exact fun _ => Calm.raise _
  | cons f rest =>
    intro hfiles
    refine (loadSpaceP_calm L (hfiles f (by simp))).bind' (fun s => ?_)
    refine (loadSecondP_calm L hfiles).bind' (fun s2 => (loadSpaceP_calm L hph).bind' (fun ph => ?_))
    refine Calm.bind' (Calm.read hin (fun _ => Calm.ret _)) (fun content => Calm.compute (fun obj _ => ?_))
    refine (saveP_calm (hal _ (by simp)) _).bind' (fun _ => ?_)
    split
    · refine exportModelP_calm obj (fun e he => ?_)
      rw [List.append_assoc _ cs!".params" e]
      apply hal
      simp only [List.mem_cons, List.not_mem_nil, or_false] at he
      rcases he with rfl | rfl | rfl | rfl <;> simp
    · exact Calm.ret _

theorem applyModelP_calm (h : Sharing o U .apply argv st) {model trained : Option Str} (ht : ∀ t, trained = some t → t = (st cs!"trained_model").strD)
    (alpha beta lam : Option ℝ) (fmt : Option Str) :
    Calm o U none
      (applyModelP L (st cs!"in_file").strD (st cs!"out_dir").strD model trained ((st cs!"arg_space").asList.getD [])
        alpha beta lam fmt) := by
  have hfiles : ∀ f ∈ (st cs!"arg_space").asList.getD [], ¬ U (o.resolve f) :=
    fun f hf => h.file (List.mem_cons_of_mem _ (List.mem_cons_of_mem _ hf))
  have hin : ¬ U (o.resolve (st cs!"in_file").strD) :=
    h.file (List.mem_cons_self)
  have htr : ¬ U (o.resolve (st cs!"trained_model").strD) :=
    h.file (List.mem_cons_of_mem _ List.mem_cons_self)
  unfold applyModelP
  refine Calm.bind' ?_ (fun m => ?_)
  · unfold modelObjP
    cases model with
    | some m => exact Calm.ofPy _
    | none =>
      cases trained with
      | none => exact Calm.raise _
      | some t =>
        obtain rfl := ht t rfl
        exact Calm.read htr (fun _ => Calm.ofPy _)
  · revert hfiles
    cases (st cs!"arg_space").asList.getD [] with
    | nil => exact fun _ => Calm.raise _
    | cons f rest =>
      intro hfiles
      refine (loadSpaceP_calm L (hfiles f (by simp))).bind' (fun s => ?_)
      refine (loadSecondP_calm L hfiles).bind' (fun s2 => (readP_calm hin).bind' (fun content => ?_))
      refine Calm.compute (fun data _ => Calm.compute (fun s hs => ?_))
      refine printP_calm L s fmt (fun e he => ?_)
      rw [show (st cs!"out_dir").strD ++ cs!"/COMPOSED_SS" ++ ['.'] ++ className m ++ ['.'] ++
          lastComp (st cs!"in_file").strD ++ e = (st cs!"out_dir").strD ++ ['/'] ++ 'C' :: (cs!"OMPOSED_SS." ++
          className m ++ ['.'] ++ lastComp (st cs!"in_file").strD ++ e) from by simp]
      exact h.out ⟨_, className_mem hs, e, he, rfl⟩

theorem parseArgsP_calm {sc : Tool} (h : ∀ f, sc.configFile argv = some f → ¬ U (o.resolve f)) :
    Calm o U none (parseArgsP sc.cli L.parseCfg argv) := by
  unfold parseArgsP
  cases hg : getopt sc.cli.short sc.cli.longs argv with
  | none => trivial
  | some or =>
    obtain ⟨opts, rest⟩ := or
    refine Calm.bind' ?_ (fun st' => Calm.ofMain _)
    unfold initialP
    match rest, hg with
    | [], _ => trivial
    | _ :: _ :: _, _ => trivial
    | [f], hg =>
      have hc : sc.configFile argv = some f := by unfold Tool.configFile; rw [hg]
      refine Calm.read (h f hc) (fun r => ?_)
      cases r with
      | ok txt =>
        simp only
        cases L.parseCfg txt <;> trivial
      | error e =>
        simp only
        split <;> trivial

/-- The log file is there already, and nobody writes it. -/
structure LogThere (o : Fs) (U : List Str → Prop) (f : Str) : Prop where
  dir : o.resolve (dirname f) ∈ o.dirs
  named : dirname f ≠ []
  isThere : ∃ t, o.read f = .ok t
  notOut : ¬ U (o.resolve f)

theorem configLoggingP_calm (hd : ∀ n ∈ o.dirs, ¬ U n) (h : ∀ f, (st cs!"log_file").asStr = some f → LogThere o U f) :
    Calm o U none (configLoggingP (st cs!"log_file").asStr) := by
  unfold configLoggingP
  cases hl : (st cs!"log_file").asStr with
  | none => trivial
  | some f =>
    obtain ⟨h1, h2, ⟨t, h3⟩, h4⟩ := h f hl
    refine Calm.bind' ?_ (fun _ => ?_)
    · refine ⟨hd _ h1, ?_⟩
      have : o.exists_ (dirname f) = true := decide_eq_true ⟨h2, Or.inl h1⟩
      beta_reduce
      rw [if_pos this]
      trivial
    · refine ⟨h4, ?_⟩
      rw [h3]
      trivial

theorem main_calm {β : Type} {sc : Tool} {P : Settings → Prog β} (h : Sharing o U sc argv st)
    (hp : sc.cli.parseArgs L.parseCfg o argv = .ok st) (hd : ∀ n ∈ o.dirs, ¬ U n)
    (hl : ∀ f, (st cs!"log_file").asStr = some f → LogThere o U f) (hP : Calm o U none (P st)) :
    Calm o U none ((parseArgsP sc.cli L.parseCfg argv).bind fun st =>
      (configLoggingP (st cs!"log_file").asStr).bind fun _ => P st) := by
  have hc : Calm o U none (parseArgsP sc.cli L.parseCfg argv) :=
    parseArgsP_calm (fun f hf => h.reads _ (Or.inr (Or.inl ⟨f, hf, rfl⟩)))
  refine Calm.bindO (fun st' e => ?_) hc
  rw [← (calm_solo _ rfl (NearBy.refl U o) (fun _ _ e => (by cases e)) hc).1, parseArgsP_solo, hp] at e
  injection e with e
  subst e
  exact (configLoggingP_calm hd hl).bind' (fun _ => hP)

/-- A script looks at no output file, and writes each of its output files in one go. -/
theorem script_calm {sc : Tool} (h : Sharing o U sc argv st) (hp : sc.cli.parseArgs L.parseCfg o argv = .ok st)
    (hd : ∀ n ∈ o.dirs, ¬ U n) (hl : ∀ f, (st cs!"log_file").asStr = some f → LogThere o U f) :
    Calm o U none (sc.prog L argv) := by
  cases sc with
  | core =>
    refine (main_calm h hp hd hl ?_).bind' (fun _ => Calm.ret _)
    refine Calm.need (fun pre hpre => Calm.need (fun od hod => Calm.need (fun fmt hfmt => ?_)))
    refine Calm.compute (fun gz _ => Calm.computeM (fun gz _ => ?_))
    have := core_calm (L := L) h gz (st cs!"out_format").asStr
    rwa [strD_of_asStr hpre, strD_of_asStr hod, strD_of_asStr hfmt] at this
  | periph =>
    refine (main_calm h hp hd hl ?_).bind' (fun _ => Calm.ret _)
    refine Calm.need (fun pre hpre => Calm.need (fun od hod => Calm.need (fun fmt hfmt => ?_)))
    refine Calm.compute (fun gz _ => Calm.computeM (fun gz _ => ?_))
    have hin : Calm o U none (readInputP L pre fmt gz) := by
      rw [← strD_of_asStr hpre, ← strD_of_asStr hfmt]
      exact readInputP_calm L gz (fun f hf => h.file (List.mem_cons_of_mem _ hf))
    have htr : ∀ (raw : Space Str) (core : Str), ¬ U (o.resolve core) →
        (core = (st cs!"core_space_file").strD ∨ ∃ d, (st cs!"core_in_dir").asStr = some d ∧ withSlash d <+: core) →
        Calm o U none (transformRawP L raw pre od (st cs!"out_format").asStr core) := by
      intro raw core h1 h2
      rw [← strD_of_asStr hpre, ← strD_of_asStr hod]
      exact transformRawP_calm h h1 h2
    cases hcd : (st cs!"core_in_dir").asStr with
    | some d =>
      refine hin.bind' (fun raw => Calm.stat (h.dirSelf hcd) (fun b => ?_))
      split
      · refine (listdirP_calm h hcd _).bind' (fun names => forP_calm _ _ (fun _ name _ => ?_))
        exact htr raw _ (h.inDir hcd name) (Or.inr ⟨d, hcd, List.prefix_append _ _⟩)
      · exact Calm.raise _
    | none =>
      refine Calm.need (fun core hcore => ?_)
      refine hin.bind' (fun raw => htr raw core ?_ (Or.inl (strD_of_asStr hcore).symm))
      rw [← strD_of_asStr hcore]
      exact h.file List.mem_cons_self
  | sims =>
    refine (main_calm h hp hd hl ?_).bind' (fun _ => Calm.ret _)
    refine Calm.need (fun f hf => Calm.need (fun od hod => Calm.need (fun ms hms => Calm.need (fun cols hcols => ?_))))
    have hcs : ∀ files, (∀ f ∈ files, ¬ U (o.resolve f)) →
        (files = (st cs!"spaces").asList.getD [] ∨ ∃ d name, (st cs!"in_dir").asStr = some d ∧ files = [withSlash d ++ name]) →
        Calm o U none (computeSimP L f cols od ms files) := by
      intro files h1 h2
      rw [← strD_of_asStr hf, ← strD_of_asStr hod]
      exact computeSimP_calm h (asList_getD hms).symm h1 h2
    cases hcd : (st cs!"in_dir").asStr with
    | some d =>
      refine Calm.stat (h.dirSelf hcd) (fun b => ?_)
      split
      · refine (listdirP_calm h hcd _).bind' (fun names => forP_calm _ _ (fun _ name _ => ?_))
        refine hcs _ (fun p hp => ?_) (Or.inr ⟨d, name, hcd, rfl⟩)
        rw [List.mem_singleton] at hp
        subst hp
        exact h.inDir hcd name
      · exact Calm.raise _
    | none =>
      refine Calm.need (fun sp hsp => ?_)
      refine hcs sp (fun p hp => ?_) (Or.inl (asList_getD hsp).symm)
      exact h.file (List.mem_cons_of_mem _ (by rw [asList_getD hsp]; exact hp))
  | neigh =>
    refine (main_calm h hp hd hl ?_).bind' (fun _ => Calm.ret _)
    refine Calm.compute (fun n _ => ?_)
    refine Calm.need (fun f hf => Calm.need (fun od hod => Calm.need (fun ms hms => Calm.need (fun sp hsp => ?_))))
    have := computeNeighboursP_calm (L := L) h n
    rwa [strD_of_asStr hf, strD_of_asStr hod, strD_of_asStr hms, asList_getD hsp] at this
  | eval =>
    refine main_calm h hp hd hl ?_
    refine Calm.need (fun ms hms => Calm.need (fun cols hcols => ?_))
    split
    · exact trivial
    · cases hcd : (st cs!"in_dir").asStr with
      | some d =>
        have key : Calm o U none
            (evaluateSimBatchP L d cols ms (st cs!"filter_").strD) := by
          refine Calm.stat (h.dirSelf hcd) (fun b => ?_)
          split
          · refine Calm.bind' ?_ (fun names =>
              evalLoopP_calm (fun name => h.inDir hcd name) _ _ _)
            exact Calm.list (fun _ hn => h.below hcd hn) (fun _ => Calm.ofPy _)
          · trivial
        exact key
      | none =>
        refine Calm.need (fun f hf => ?_)
        have key : Calm o U none
            ((evaluateSimP L f cols ms).bind fun r => .ret [(([] : Str), r)]) := by
          refine (evaluateSimP_calm ?_ _ _).bind' (fun _ => Calm.ret _)
          rw [← strD_of_asStr hf]
          exact h.file List.mem_cons_self
        exact key
  | train =>
    refine (main_calm h hp hd hl ?_).bind' (fun _ => Calm.ret _)
    refine Calm.need (fun f hf => Calm.need (fun od hod => Calm.need (fun ms hms => Calm.need (fun sp hsp => Calm.need (fun ph hph => ?_)))))
    refine Calm.compute (fun cv _ => Calm.compute (fun ic _ => Calm.computeM (fun ic _ => Calm.computeM (fun cv _ =>
      Calm.compute (fun ex _ => Calm.computeM (fun ex _ => Calm.compute (fun pr _ => Calm.computeM (fun _ _ => ?_))))))))
    have := trainModelP_calm (L := L) h (st cs!"regression").asStr cv ic pr.1 pr.2 ex
    rwa [strD_of_asStr hf, strD_of_asStr hod, strD_of_asStr hms, asList_getD hsp, strD_of_asStr hph] at this
  | apply =>
    refine (main_calm h hp hd hl ?_).bind' (fun _ => Calm.ret _)
    refine Calm.need (fun f hf => Calm.need (fun od hod => Calm.computeM (fun _ _ => Calm.need (fun sp hsp => ?_))))
    refine Calm.compute (fun al _ => Calm.compute (fun be _ => Calm.compute (fun la _ => ?_)))
    have := applyModelP_calm (L := L) h (model := (st cs!"model").asStr)
      (trained := (st cs!"trained_model").asStr) (fun t ht => (strD_of_asStr ht).symm) al be la (st cs!"out_format").asStr
    rwa [strD_of_asStr hf, strD_of_asStr hod, asList_getD hsp] at this

end
end
end Dissect
