import Verif.Lemmas.ConcRun
import Verif.Props.Cli

/-!
# Processes that run at the same time

C124: processes that keep out of each other's way end, in every interleaving of their system calls, as if each had run
alone. C125: when the scripts do keep out of each other's way.
-/

namespace Dissect
noncomputable section
open Prog

section
variable {ι α : Type} [DecidableEq ι]

/-- **C124.** If no process changes a node that another one looks at, then after every schedule each process that has
ended has ended with the outcome it has when it runs alone, and finds the disk, wherever it looks, as if it had run
alone. -/
theorem C124_no_interference {s : Sys ι α} (hsep : s.Separate) (sched : List ι) (i : ι)
    (hd : ((s.run sched).prog i).Done) :
    (s.run sched).prog i = Prog.ofMain ((s.prog i).solo (s.view i)).1 ∧
      ∀ n, (s.prog i).touches (s.view i) n → SameAt ((s.run sched).view i) ((s.prog i).solo (s.view i)).2 n := by
  obtain ⟨f, h, -⟩ := Sys.Sim.run hsep sched (Sys.Sim.start s)
  obtain ⟨h1, h2⟩ := Prog.done_eq hd (f i)
  rw [h.solo i] at h1 h2
  refine ⟨h1, fun n hn => ?_⟩
  rw [h2]
  exact (h.agree i).sameAt hn

/-- **C124.** Such a process ends after as many turns as it makes system calls alone, whatever the others do in
between. -/
theorem C124_progress {s : Sys ι α} (hsep : s.Separate) (sched : List ι) (i : ι)
    (hn : (s.prog i).steps (s.view i) ≤ sched.count i) : ((s.run sched).prog i).Done := by
  obtain ⟨f, -, h⟩ := Sys.Sim.run hsep sched (Sys.Sim.start s)
  exact Prog.steps_zero (by rw [h i]; exact Nat.sub_eq_zero_of_le hn)

/-- **C124.** It has not ended before. -/
theorem C124_not_sooner {s : Sys ι α} (hsep : s.Separate) (sched : List ι) (i : ι)
    (hn : sched.count i < (s.prog i).steps (s.view i)) : ¬ ((s.run sched).prog i).Done := by
  obtain ⟨f, -, h⟩ := Sys.Sim.run hsep sched (Sys.Sim.start s)
  intro hd
  have := h i
  rw [Prog.steps_done hd] at this
  have h0 : (s.prog i).steps (s.view i) - sched.count i = 0 := this.symm
  omega

/-- **C124.** What no process changes alone is not changed by any schedule, ended or not. -/
theorem C124_untouched {s : Sys ι α} (hsep : s.Separate) (sched : List ι) (i : ι) {n : List Str}
    (hn : ∀ j, ¬ (s.prog j).writes (s.view j) n) : SameAt ((s.run sched).view i) (s.view i) n := by
  obtain ⟨f, h, -⟩ := Sys.Sim.run hsep sched (Sys.Sim.start s)
  exact h.other n hn i

/-- **C124.** Two schedules after which every process has ended lead to the same outcomes and to the same disk. -/
theorem C124_schedules_agree {s : Sys ι α} (hsep : s.Separate) (sched sched' : List ι)
    (h : ∀ i, ((s.run sched).prog i).Done) (h' : ∀ i, ((s.run sched').prog i).Done) :
    (∀ i, (s.run sched).prog i = (s.run sched').prog i) ∧
      ∀ i n, SameAt ((s.run sched).view i) ((s.run sched').view i) n := by
  refine ⟨fun i => ?_, fun i n => ?_⟩
  · rw [(C124_no_interference hsep sched i (h i)).1, (C124_no_interference hsep sched' i (h' i)).1]
  · by_cases hw : ∃ j, (s.prog j).writes (s.view j) n
    · obtain ⟨j, hj⟩ := hw
      have a := (C124_no_interference hsep sched j (h j)).2 n (Prog.writes_touches _ _ hj)
      have b := (C124_no_interference hsep sched' j (h' j)).2 n (Prog.writes_touches _ _ hj)
      exact ⟨a.1.trans b.1.symm, a.2.trans b.2.symm⟩
    · have hn : ∀ j, ¬ (s.prog j).writes (s.view j) n := fun j hj => hw ⟨j, hj⟩
      have a := C124_untouched hsep sched i hn
      have b := C124_untouched hsep sched' i hn
      exact ⟨a.1.trans b.1.symm, a.2.trans b.2.symm⟩

end

/-- Three processes: two write different files below the same directory, one reads a third file; the empty disk has the
directory only. -/
def exThree : Sys (Fin 3) Str where
  dirs := [[cs!"d"]]
  files := (Dict.empty).set [cs!"d", cs!"c"] cs!"hello"
  cwd := fun _ => []
  prog := fun i => if i = 0 then (writeP cs!"/d/a" (.ok cs!"xy")).bind fun _ => .ret cs!"one"
    else if i = 1 then (writeP cs!"/d/b" (.ok cs!"z")).bind fun _ => readP cs!"/d/b" else readP cs!"/d/c"

/-- The hypothesis of C124 is met by `exThree`. -/
theorem exThree_separate : exThree.Separate := by
  have w0 : ∀ n, (exThree.prog 0).writes (exThree.view 0) n → n = [cs!"d", cs!"a"] := by
    intro n h
    have h' : (n = (exThree.view 0).resolve cs!"/d/a" ∧ ∃ q, ((exThree.view 0).openCall cs!"/d/a").1 = .ok q) ∨
      n = [cs!"d", cs!"a"] ∨ n = [cs!"d", cs!"a"] ∨ False := h
    rcases h' with ⟨h, -⟩ | h | h | h
    exacts [h, h, h, h.elim]
  have w1 : ∀ n, (exThree.prog 1).writes (exThree.view 1) n → n = [cs!"d", cs!"b"] := by
    intro n h
    have h' : (n = (exThree.view 1).resolve cs!"/d/b" ∧ ∃ q, ((exThree.view 1).openCall cs!"/d/b").1 = .ok q) ∨
      n = [cs!"d", cs!"b"] ∨ False := h
    rcases h' with ⟨h, -⟩ | h | h
    exacts [h, h, h.elim]
  have w2 : ∀ n, ¬ (exThree.prog 2).writes (exThree.view 2) n := fun n h => (show False from h)
  have t0 : ∀ n, (exThree.prog 0).touches (exThree.view 0) n → n = [cs!"d", cs!"a"] ∨ n = [cs!"d"] := by
    intro n h
    have h' : n = [cs!"d", cs!"a"] ∨ n = [cs!"d"] ∨ n = [cs!"d", cs!"a"] ∨ n = [cs!"d", cs!"a"] ∨ False := h
    tauto
  have t1 : ∀ n, (exThree.prog 1).touches (exThree.view 1) n → n = [cs!"d", cs!"b"] ∨ n = [cs!"d"] := by
    intro n h
    have h' : n = [cs!"d", cs!"b"] ∨ n = [cs!"d"] ∨ n = [cs!"d", cs!"b"] ∨ n = [cs!"d", cs!"b"] ∨ False := h
    tauto
  have t2 : ∀ n, (exThree.prog 2).touches (exThree.view 2) n → n = [cs!"d", cs!"c"] := by
    intro n h
    have h' : n = [cs!"d", cs!"c"] ∨ False := h
    tauto
  intro i j hij n hw ht
  match i, j with
  | 0, 0 => exact hij rfl
  | 1, 1 => exact hij rfl
  | 2, _ => exact w2 n hw
  | 0, 1 => obtain rfl := w0 n hw; have := t1 _ ht; revert this; decide
  | 0, 2 => obtain rfl := w0 n hw; have := t2 _ ht; revert this; decide
  | 1, 0 => obtain rfl := w1 n hw; have := t0 _ ht; revert this; decide
  | 1, 2 => obtain rfl := w1 n hw; have := t2 _ ht; revert this; decide

/-- Whatever the order, `exThree` ends with both files and with what was read. -/
example (sched : List (Fin 3)) (h : ∀ i, 5 ≤ sched.count i) :
    (exThree.run sched).prog 0 = .ret cs!"one" ∧ (exThree.run sched).prog 1 = .ret cs!"z" ∧
      (exThree.run sched).prog 2 = .ret cs!"hello" ∧ (exThree.run sched).files.get? [cs!"d", cs!"a"] = some cs!"xy" := by
  have hd : ∀ i, ((exThree.run sched).prog i).Done := by
    intro i
    refine C124_progress exThree_separate sched i (le_trans ?_ (h i))
    match i with
    | 0 => exact (by decide : 3 ≤ 5)
    | 1 => exact (by decide : 3 ≤ 5)
    | 2 => exact (by decide : 1 ≤ 5)
  refine ⟨(C124_no_interference exThree_separate sched 0 (hd 0)).1, (C124_no_interference exThree_separate sched 1 (hd 1)).1,
    (C124_no_interference exThree_separate sched 2 (hd 2)).1, ?_⟩
  exact ((C124_no_interference exThree_separate sched 0 (hd 0)).2 [cs!"d", cs!"a"] (Or.inl rfl)).2

/-! ### The scripts -/

section
variable {ι : Type} [DecidableEq ι] {L : Lib} {dirs : List (List Str)} {files : Dict (List Str) Str}
  {cwd : ι → List Str} {sc : ι → Tool} {argv : ι → List Str} {st : ι → Settings}

/-- The runs do not get in each other's way, in terms of the files named by their settings. -/
theorem scripts_separate (hready : ∀ i, (sc i).Ready L ⟨cwd i, dirs, files⟩ (argv i) (st i))
    (hsep : ∀ i j, i ≠ j → ∀ n, (sc i).MayWrite (cwd i) (st i) n → ¬ (sc j).MayTouch (cwd j) (argv j) (st j) n) :
    (startScripts L dirs files cwd sc argv).Separate := by
  intro i j hij n hw ht
  exact hsep i j hij n ((script_foot (hready i)).w n hw) ((script_foot (hready j)).t n ht)

theorem mayWrite_mayTouch {sc : Tool} {c argv : List Str} {st : Settings} {n : List Str} (h : sc.MayWrite c st n) :
    sc.MayTouch c argv st n := by
  rcases h with ⟨p, h1, h2, -, h3⟩ | ⟨f, h1, h2⟩
  · exact Or.inl ⟨p, h1, h2, h3⟩
  · exact Or.inr (Or.inr (Or.inr (Or.inr ⟨f, h1, Or.inl h2⟩)))

/-- **C125.** Runs of the scripts, each with an existing output directory, none of which may change a file that another
one may look at: whatever the schedule, a run that has ended has ended as alone. -/
theorem C125_scripts (hready : ∀ i, (sc i).Ready L ⟨cwd i, dirs, files⟩ (argv i) (st i))
    (hsep : ∀ i j, i ≠ j → ∀ n, (sc i).MayWrite (cwd i) (st i) n → ¬ (sc j).MayTouch (cwd j) (argv j) (st j) n)
    (sched : List ι) (i : ι) (hd : (((startScripts L dirs files cwd sc argv).run sched).prog i).Done) :
    EndsAsAlone L ⟨cwd i, dirs, files⟩ (sc i) (argv i) (st i)
      (((startScripts L dirs files cwd sc argv).run sched).prog i)
      (((startScripts L dirs files cwd sc argv).run sched).view i) := by
  have hS := scripts_separate hready hsep
  obtain ⟨h1, h2⟩ := C124_no_interference hS sched i hd
  obtain ⟨s1, s2⟩ := script_solo L ⟨cwd i, dirs, files⟩ (argv i) (sc i)
  unfold EndsAsAlone
  cases ha : (sc i).alone L ⟨cwd i, dirs, files⟩ (argv i) with
  | error e =>
    obtain ⟨g, h3⟩ := s2 e ha
    have h3' : ((startScripts L dirs files cwd sc argv).prog i).solo ((startScripts L dirs files cwd sc argv).view i) =
      (.error e, g) := h3
    rw [h3'] at h1
    exact h1
  | ok x =>
    obtain ⟨r, g⟩ := x
    have h3 : ((startScripts L dirs files cwd sc argv).prog i).solo ((startScripts L dirs files cwd sc argv).view i) =
      (.ok r, g) := s1 r g ha
    rw [h3] at h1 h2
    refine ⟨h1, fun n hn => ?_⟩
    by_cases ht : ((startScripts L dirs files cwd sc argv).prog i).touches ((startScripts L dirs files cwd sc argv).view i) n
    · exact h2 n ht
    · have hw : ∀ j, ¬ ((startScripts L dirs files cwd sc argv).prog j).writes
          ((startScripts L dirs files cwd sc argv).view j) n := by
        intro j hj
        by_cases hji : j = i
        · subst hji
          exact ht (Prog.writes_touches _ _ hj)
        · exact hsep j i hji n ((script_foot (hready j)).w n hj) hn
      have a := C124_untouched hS sched i hw
      have b := solo_same _ _ (hw i)
      rw [h3] at b
      exact ⟨a.1.trans b.1.symm, a.2.trans b.2.symm⟩

/-- **C125.** Each of these runs ends once it has had enough turns. -/
theorem C125_scripts_end (hready : ∀ i, (sc i).Ready L ⟨cwd i, dirs, files⟩ (argv i) (st i))
    (hsep : ∀ i j, i ≠ j → ∀ n, (sc i).MayWrite (cwd i) (st i) n → ¬ (sc j).MayTouch (cwd j) (argv j) (st j) n)
    (i : ι) : ∃ N, ∀ sched : List ι, N ≤ sched.count i →
      (((startScripts L dirs files cwd sc argv).run sched).prog i).Done :=
  ⟨_, fun sched h => C124_progress (scripts_separate hready hsep) sched i h⟩

/-- **C125.** At no time is a file changed that is not an output or log file of one of the runs. -/
theorem C125_scripts_untouched (hready : ∀ i, (sc i).Ready L ⟨cwd i, dirs, files⟩ (argv i) (st i))
    (hsep : ∀ i j, i ≠ j → ∀ n, (sc i).MayWrite (cwd i) (st i) n → ¬ (sc j).MayTouch (cwd j) (argv j) (st j) n)
    (sched : List ι) (i : ι) {n : List Str} (hn : ∀ j, ¬ (sc j).MayWrite (cwd j) (st j) n) :
    SameAt (((startScripts L dirs files cwd sc argv).run sched).view i) ⟨cwd i, dirs, files⟩ n :=
  C124_untouched (scripts_separate hready hsep) sched i (fun j hj => hn j ((script_foot (hready j)).w n hj))

end

/-! ### Output files are told apart by their names -/

theorem splitSlash_first : ∀ (t cur : Str), ∃ x rest, splitSlashAux cur t = (cur ++ x) :: rest
  | [], cur => ⟨[], [], by simp [splitSlashAux]⟩
  | c :: cs, cur => by
    unfold splitSlashAux
    split
    · exact ⟨[], _, by rw [List.append_nil]⟩
    · obtain ⟨x, rest, h⟩ := splitSlash_first cs (cur ++ [c])
      exact ⟨c :: x, rest, by rw [h]; simp⟩

theorem splitSlash_noslash : ∀ (g cur t : Str), '/' ∉ g → splitSlashAux cur (g ++ t) = splitSlashAux (cur ++ g) t
  | [], cur, t, _ => by simp
  | c :: cs, cur, t, h => by
    rw [List.cons_append]
    conv_lhs => unfold splitSlashAux
    rw [if_neg (fun e => h (by simp [e])), splitSlash_noslash cs _ _ (fun h' => h (by simp [h']))]
    simp

/-- The first component of a path that begins with a tag begins with the tag. -/
theorem pathComps_tag {g nm : Str} (hg : '/' ∉ g) (h2 : 2 ≤ g.length) (h : g <+: nm) :
    ∃ name rest, pathComps nm = name :: rest ∧ g <+: name := by
  obtain ⟨t, rfl⟩ := h
  unfold pathComps
  rw [splitSlash_noslash g [] t hg, List.nil_append]
  obtain ⟨x, rest, hx⟩ := splitSlash_first t g
  rw [hx, List.filter_cons_of_pos]
  · exact ⟨_, _, rfl, List.prefix_append _ _⟩
  · rw [decide_eq_true_iff]
    constructor <;> intro e <;> have := congrArg List.length e <;>
      simp only [List.length_append, List.length_nil, List.length_cons] at this <;> omega

theorem joinStr_prefix (sep x : Str) (xs : List Str) : x <+: joinStr sep (x :: xs) := by
  cases xs with
  | nil => exact List.prefix_rfl
  | cons y ys => exact ⟨sep ++ joinStr sep (y :: ys), by simp [joinStr]⟩

theorem outName_tag {sc : Tool} {st : Settings} {nm : Str} (h : sc.OutName st nm) : sc ≠ .eval ∧ sc.tag <+: nm := by
  cases sc with
  | eval => exact h.elim
  | core =>
    refine ⟨by simp, ?_⟩
    obtain ⟨w, -, s, -, r, -, n, -, e, -, rfl⟩ := h
    refine List.IsPrefix.trans ?_ (List.prefix_append _ _)
    have hk : keptOps [some (cs!"CORE_SS." ++ lastComp (st cs!"in_file_prefix").strD), w, s, r, n] =
        (cs!"CORE_SS." ++ lastComp (st cs!"in_file_prefix").strD) :: keptOps [w, s, r, n] := by
      unfold keptOps
      show List.filter _ ((cs!"CORE_SS." ++ lastComp (st cs!"in_file_prefix").strD) :: List.filterMap id [w, s, r, n]) = _
      rw [List.filter_cons_of_pos (by simp)]
    rw [hk]
    exact List.IsPrefix.trans (List.prefix_append _ _) (joinStr_prefix _ _ _)
  | periph =>
    refine ⟨by simp, ?_⟩
    obtain ⟨core, -, e, -, rfl⟩ := h
    exact ⟨_, by simp only [List.append_assoc]; rfl⟩
  | sims =>
    refine ⟨by simp, ?_⟩
    obtain ⟨files, -, m, -, rfl⟩ := h
    exact ⟨_, rfl⟩
  | neigh =>
    refine ⟨by simp, ?_⟩
    rw [show nm = _ from h]
    exact ⟨_, rfl⟩
  | train =>
    refine ⟨by simp, ?_⟩
    obtain ⟨e, -, rfl⟩ := h
    exact ⟨_, by simp only [List.append_assoc]; rfl⟩
  | apply =>
    refine ⟨by simp, ?_⟩
    obtain ⟨cls, -, e, -, rfl⟩ := h
    exact ⟨_, by simp only [List.append_assoc]; rfl⟩

theorem tag_noslash (sc : Tool) : '/' ∉ sc.tag := by cases sc <;> decide

theorem outFile_node {sc : Tool} {c : List Str} {st : Settings} {p : Str} (h : sc.OutFile st p) :
    ∃ name rest, nodeOf c p = Tool.outNode c st ++ name :: rest ∧ sc.tag <+: name ∧ sc ≠ .eval := by
  obtain ⟨nm, h1, rfl⟩ := h
  obtain ⟨hne, ht⟩ := outName_tag h1
  obtain ⟨name, rest, h2, h3⟩ := pathComps_tag (tag_noslash sc) (by cases sc <;> first | exact absurd rfl hne | decide) ht
  refine ⟨name, rest, ?_, h3, hne⟩
  rw [nodeOf_slash, h2]
  rfl

theorem prefix_between {O n r : List Str} {a : Str} (h1 : O <+: n) (h2 : n ≠ O) (h3 : n <+: O ++ a :: r) : O ++ [a] <+: n := by
  obtain ⟨t, rfl⟩ := h1
  cases t with
  | nil => exact absurd (by simp) h2
  | cons x xs =>
    rw [List.prefix_append_right_inj, List.cons_prefix_cons] at h3
    obtain ⟨rfl, -⟩ := h3
    exact ⟨xs, by simp⟩

theorem mayWrite_claims {sc : Tool} {c : List Str} {st : Settings} {n : List Str}
    (hl : (st cs!"log_file").asStr = none) (h : sc.MayWrite c st n) : sc.Claims c st n := by
  rcases h with ⟨p, h1, h2, h3, h4⟩ | ⟨f, h1, -⟩
  · obtain ⟨name, rest, e, ht, hne⟩ := outFile_node (c := c) h1
    rw [e] at h4
    exact ⟨hne, name, ht, prefix_between h2 h3 h4⟩
  · rw [hl] at h1; cases h1

theorem mayTouch_reads {sc : Tool} {c argv : List Str} {st : Settings} {n : List Str}
    (hl : (st cs!"log_file").asStr = none) (h : sc.MayTouch c argv st n) : sc.Claims c st n ∨ sc.Reads c argv st n := by
  rcases h with ⟨p, h1, h2, h3⟩ | h | h | h | ⟨f, h1, -⟩
  · by_cases hn : n = Tool.outNode c st
    · exact Or.inr (Or.inl hn)
    · exact Or.inl (mayWrite_claims hl (Or.inl ⟨p, h1, h2, hn, h3⟩))
  · exact Or.inr (Or.inr (Or.inl h))
  · exact Or.inr (Or.inr (Or.inr (Or.inl h)))
  · exact Or.inr (Or.inr (Or.inr (Or.inr h)))
  · rw [hl] at h1; cases h1

section
variable {ι : Type} {cwd : ι → List Str} {sc : ι → Tool} {argv : ι → List Str} {st : ι → Settings}

/-- **C125.** When does a run keep out of the way of the others? It suffices that what the names of its output files
reserve in its output directory is neither reserved by another run nor read by it. -/
theorem C125_by_name (hlog : ∀ i, (st i cs!"log_file").asStr = none)
    (hc : ∀ i j, i ≠ j → ∀ n, (sc i).Claims (cwd i) (st i) n →
      ¬ (sc j).Claims (cwd j) (st j) n ∧ ¬ (sc j).Reads (cwd j) (argv j) (st j) n) :
    ∀ i j, i ≠ j → ∀ n, (sc i).MayWrite (cwd i) (st i) n → ¬ (sc j).MayTouch (cwd j) (argv j) (st j) n := by
  intro i j hij n hw ht
  have h := hc i j hij n (mayWrite_claims (hlog i) hw)
  rcases mayTouch_reads (hlog j) ht with h' | h'
  · exact h.1 h'
  · exact h.2 h'

/-- **C125.** Different scripts never reserve the same name, even in the same output directory. -/
theorem C125_different_scripts {i j : ι} (hs : sc i ≠ sc j)
    (hO : Tool.outNode (cwd i) (st i) = Tool.outNode (cwd j) (st j)) {n : List Str}
    (h : (sc i).Claims (cwd i) (st i) n) : ¬ (sc j).Claims (cwd j) (st j) n := by
  rintro ⟨hj, nj, t2, p2⟩
  obtain ⟨hi, ni, t1, p1⟩ := h
  rw [hO] at p1
  have hl : Tool.outNode (cwd j) (st j) ++ [ni] = Tool.outNode (cwd j) (st j) ++ [nj] := by
    have := List.prefix_or_prefix_of_prefix p1 p2
    rcases this with h | h
    · exact h.eq_of_length (by simp)
    · exact (h.eq_of_length (by simp)).symm
  have hn : ni = nj := by simpa using hl
  subst hn
  have hpp := List.prefix_or_prefix_of_prefix t1 t2
  revert hi hj hs hpp
  generalize sc i = a
  generalize sc j = b
  cases a <;> cases b <;> decide

/-- **C125.** Runs whose output directories are not nested reserve different names. -/
theorem C125_different_directories {i j : ι}
    (h1 : ¬ Tool.outNode (cwd i) (st i) <+: Tool.outNode (cwd j) (st j))
    (h2 : ¬ Tool.outNode (cwd j) (st j) <+: Tool.outNode (cwd i) (st i)) {n : List Str}
    (h : (sc i).Claims (cwd i) (st i) n) : ¬ (sc j).Claims (cwd j) (st j) n := by
  rintro ⟨-, nj, -, p2⟩
  obtain ⟨-, ni, -, p1⟩ := h
  have p1' := (List.prefix_append (Tool.outNode (cwd i) (st i)) [ni]).trans p1
  have p2' := (List.prefix_append (Tool.outNode (cwd j) (st j)) [nj]).trans p2
  rcases List.prefix_or_prefix_of_prefix p1' p2' with h | h
  · exact h1 h
  · exact h2 h

end

/-- The command line `build_core_space.py -i /data/in -o /out --input_format=pkl`. -/
def exCoreArgs : List Given := [⟨docCore[0], .shortSep 'i', cs!"/data/in"⟩, ⟨docCore[1], .shortSep 'o', cs!"/out"⟩,
  ⟨docCore[7], .longEq, cs!"pkl"⟩]

/-- The command line `apply_composition.py -i /data/pairs -o /out -m mult -a /data/in.pkl`. -/
def exApplyArgs : List Given := [⟨docApply[0], .shortSep 'i', cs!"/data/pairs"⟩, ⟨docApply[1], .shortSep 'o', cs!"/out"⟩,
  ⟨docApply[2], .shortSep 'm', cs!"mult"⟩, ⟨docApply[7], .shortSep 'a', cs!"/data/in.pkl"⟩]

/-- Both scripts started at the same time with a common, existing output directory meet the hypotheses of C125. -/
theorem exTwo_scripts (L : Lib) (files : Dict (List Str) Str) :
    ∃ st : Bool → Settings,
      (∀ b, (cond b Tool.apply Tool.core).Ready L ⟨[cs!"home"], [[], [cs!"home"], [cs!"data"], [cs!"out"]], files⟩
        ((cond b exApplyArgs exCoreArgs).map Given.render).flatten (st b)) ∧
      (∀ i j, i ≠ j → ∀ n, (cond i Tool.apply Tool.core).MayWrite [cs!"home"] (st i) n →
        ¬ (cond j Tool.apply Tool.core).MayTouch [cs!"home"] ((cond j exApplyArgs exCoreArgs).map Given.render).flatten
          (st j) n) ∧
      ∀ b, Tool.outNode [cs!"home"] (st b) = [cs!"out"] ∧ (st b cs!"log_file").asStr = none := by
  obtain ⟨st0, a1, a2⟩ := parse_values (documentedScripts_ok (cliCore, docCore) (by simp [documentedScripts])) L.parseCfg
    ⟨[cs!"home"], [[], [cs!"home"], [cs!"data"], [cs!"out"]], files⟩ exCoreArgs
    (by intro g hg; simp only [exCoreArgs, List.mem_cons, List.not_mem_nil, or_false] at hg
        rcases hg with rfl | rfl | rfl <;> simp [Given.Valid, docCore])
    [] (by intro a ha; cases ha) (fun _ => none) rfl
  obtain ⟨st1, b1, b2⟩ := parse_values (documentedScripts_ok (cliApply, docApply) (by simp [documentedScripts])) L.parseCfg
    ⟨[cs!"home"], [[], [cs!"home"], [cs!"data"], [cs!"out"]], files⟩ exApplyArgs
    (by intro g hg; simp only [exApplyArgs, List.mem_cons, List.not_mem_nil, or_false] at hg
        rcases hg with rfl | rfl | rfl | rfl <;> simp [Given.Valid, docApply])
    [] (by intro a ha; cases ha) (fun _ => none) rfl
  have hc0 : Tool.configFile .core (exCoreArgs.map Given.render).flatten = none := by
    have := getopt_givens (documentedScripts_ok (cliCore, docCore) (by simp [documentedScripts]))
      (getopt_positional (short := cliCore.short) (longs := cliCore.longs) (tail := []) (by intro a ha; cases ha)) (gs := exCoreArgs)
      (by intro g hg; simp only [exCoreArgs, List.mem_cons, List.not_mem_nil, or_false] at hg
          rcases hg with rfl | rfl | rfl <;> simp [Given.Valid, docCore])
    rw [List.append_nil] at this
    unfold Tool.configFile
    rw [show Tool.core.cli = cliCore from rfl, this]
  have hc1 : Tool.configFile .apply (exApplyArgs.map Given.render).flatten = none := by
    have := getopt_givens (documentedScripts_ok (cliApply, docApply) (by simp [documentedScripts]))
      (getopt_positional (short := cliApply.short) (longs := cliApply.longs) (tail := []) (by intro a ha; cases ha)) (gs := exApplyArgs)
      (by intro g hg; simp only [exApplyArgs, List.mem_cons, List.not_mem_nil, or_false] at hg
          rcases hg with rfl | rfl | rfl | rfl <;> simp [Given.Valid, docApply])
    rw [List.append_nil] at this
    unfold Tool.configFile
    rw [show Tool.apply.cli = cliApply from rfl, this]
  rw [List.append_nil] at a1 b1
  have a_in : st0 cs!"in_file_prefix" = .str cs!"/data/in" := a2 docCore[0] (by simp [docCore])
  have a_out : st0 cs!"out_dir" = .str cs!"/out" := a2 docCore[1] (by simp [docCore])
  have a_fmt : st0 cs!"in_format" = .str cs!"pkl" := a2 docCore[7] (by simp [docCore])
  have a_log : st0 cs!"log_file" = .none := a2 docCore[6] (by simp [docCore])
  have b_in : st1 cs!"in_file" = .str cs!"/data/pairs" := b2 docApply[0] (by simp [docApply])
  have b_out : st1 cs!"out_dir" = .str cs!"/out" := b2 docApply[1] (by simp [docApply])
  have b_tr : st1 cs!"trained_model" = .none := b2 docApply[6] (by simp [docApply])
  have b_arg : st1 cs!"arg_space" = .list [cs!"/data/in.pkl"] := b2 docApply[7] (by simp [docApply])
  have b_log : st1 cs!"log_file" = .none := b2 docApply[9] (by simp [docApply])
  refine ⟨fun b => cond b st1 st0, ?_, ?_, ?_⟩
  · intro b
    cases b
    · refine ⟨a1, ?_, ?_⟩
      · intro d hd
        replace hd : (st0 cs!"out_dir").asStr = some d := hd
        rw [a_out] at hd
        obtain rfl : cs!"/out" = d := by injection hd
        show nodeOf [cs!"home"] cs!"/out/" ∈ [[], [cs!"home"], [cs!"data"], [cs!"out"]]
        decide
      · intro f hf
        replace hf : (st0 cs!"log_file").asStr = some f := hf
        rw [a_log] at hf
        cases hf
    · refine ⟨b1, ?_, ?_⟩
      · intro d hd
        replace hd : (st1 cs!"out_dir").asStr = some d := hd
        rw [b_out] at hd
        obtain rfl : cs!"/out" = d := by injection hd
        show nodeOf [cs!"home"] cs!"/out/" ∈ [[], [cs!"home"], [cs!"data"], [cs!"out"]]
        decide
      · intro f hf
        replace hf : (st1 cs!"log_file").asStr = some f := hf
        rw [b_log] at hf
        cases hf
  · have o0 : Tool.outNode [cs!"home"] st0 = [cs!"out"] := by
      unfold Tool.outNode; rw [a_out]; rfl
    have o1 : Tool.outNode [cs!"home"] st1 = [cs!"out"] := by
      unfold Tool.outNode; rw [b_out]; rfl
    have hcl : ∀ (sc : Tool) (st : Settings) (n : List Str), Tool.outNode [cs!"home"] st = [cs!"out"] →
        sc.Claims [cs!"home"] st n → 2 ≤ n.length ∧ n.head? = some cs!"out" := by
      rintro sc st n ho ⟨-, name, -, h⟩
      rw [ho] at h
      obtain ⟨t, rfl⟩ := h
      simp
    refine C125_by_name (cwd := fun _ => [cs!"home"]) (st := fun b => cond b st1 st0) (sc := fun b => cond b .apply .core)
      (argv := fun b => ((cond b exApplyArgs exCoreArgs).map Given.render).flatten)
      (fun b => by cases b <;> simp [a_log, b_log, OptVal.asStr]) ?_
    intro i j hij n hn
    have ho : ∀ b, Tool.outNode [cs!"home"] (cond b st1 st0) = [cs!"out"] := by intro b; cases b; exacts [o0, o1]
    refine ⟨C125_different_scripts (cwd := fun _ => [cs!"home"]) (st := fun b => cond b st1 st0)
      (sc := fun b => cond b .apply .core) ?_ ((ho i).trans (ho j).symm) hn, ?_⟩
    · cases i <;> cases j <;> simp_all
    · obtain ⟨l2, lh⟩ := hcl _ _ n (ho i) hn
      rintro (h | ⟨f, h, -⟩ | ⟨f, hf, rfl⟩ | ⟨d, h, -⟩)
      · rw [h, ho j] at l2
        simp at l2
      · cases j
        · exact absurd (hc0.symm.trans h) (by simp)
        · exact absurd (hc1.symm.trans h) (by simp)
      · revert lh
        cases j
        · have hf' : f ∈ Tool.spaceFiles (st0 cs!"in_file_prefix").strD (st0 cs!"in_format").strD := hf
          rw [a_in, a_fmt] at hf'
          have : f ∈ [cs!"/data/in.rows", cs!"/data/in.cols", cs!"/data/in.pkl", cs!"/data/in.pkl.gz"] := hf'
          simp only [List.mem_cons, List.not_mem_nil, or_false] at this
          rcases this with rfl | rfl | rfl | rfl <;> decide
        · have hf' : f ∈ (st1 cs!"in_file").strD :: (st1 cs!"trained_model").strD :: (st1 cs!"arg_space").asList.getD [] := hf
          rw [b_in, b_tr, b_arg] at hf'
          have : f ∈ [cs!"/data/pairs", [], cs!"/data/in.pkl"] := hf'
          simp only [List.mem_cons, List.not_mem_nil, or_false] at this
          rcases this with rfl | rfl | rfl <;> decide
      · cases j <;> cases h
  · intro b
    cases b
    · exact ⟨by unfold Tool.outNode; show nodeOf _ ((st0 cs!"out_dir").strD ++ _) = _; rw [a_out]; rfl, by
        show (st0 cs!"log_file").asStr = none; rw [a_log]; rfl⟩
    · exact ⟨by unfold Tool.outNode; show nodeOf _ ((st1 cs!"out_dir").strD ++ _) = _; rw [b_out]; rfl, by
        show (st1 cs!"log_file").asStr = none; rw [b_log]; rfl⟩

end
end Dissect
