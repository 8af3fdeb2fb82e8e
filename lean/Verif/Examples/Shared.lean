import Verif.Props.Heap
import Verif.Props.ConcSave
import Verif.Props.ConcScript

/-! # Concrete instances of the theorems about shared storage (C93–C95) and concurrent runs (C124–C127) -/

namespace Dissect
noncomputable section
namespace Examples

/-! ## C93, C94, C95 -/

/-- `x = DenseMatrix(a)` for the array `1, -1`. -/
abbrev oneDense (env : Env) : Session := exSession env ⟨.dense, onePair⟩ .dense

theorem oneDense_reachable (env : Env) : Reachable env (oneDense env) := exSession_reachable env ⟨.dense, onePair⟩ .dense

theorem oneDense_matrix (env : Env) : (oneDense env).heap.matrix 1 = some ⟨.dense, onePair⟩ := by
  have hres : onePair.reshape 1 2 = onePair := Mat.reshape_self onePair
  rw [oneDense, exDense_heap]; unfold Heap.matrix Heap.value; simp [hres]

theorem oneDense_view (env : Env) : (oneDense env).heap.view 1 = some ⟨.dense, onePair⟩ := Heap.matrix_view (oneDense_matrix env)

theorem oneDense_length (env : Env) : (oneDense env).heap.objs.length = 2 := by rw [oneDense, exDense_heap]; rfl

example (env : Env) : ((oneDense env).step env (.scaling .plog 1 none)).heap.view 1 = some ⟨.dense, onePair⟩ := by
  rw [← oneDense_view env]
  exact C93_unchanged (oneDense_reachable env) (.scaling .plog 1 none) rfl (by rw [oneDense_length]; decide)

example (env : Env) : ((oneDense env).heap.run env [.scaling .plog 1 none, .wrap .sparse 2, .linSim 1 2]).view 1 =
    some ⟨.dense, onePair⟩ := by
  rw [← oneDense_view env]
  exact C93_history (oneDense_reachable env) _ (by decide) (by rw [oneDense_length]; decide)

/-- An empty numpy matrix is refused by both constructors. -/
example (env : Env) (ty : MTy) : ∃ h', HM.wrap ty 0 (Session.start.step env (.array ⟨.dense, Mat.of 0 2 fun _ _ => 0⟩)).heap =
    (h', .error .valueError) := by
  have h := (C93_constructor (env := env) (s := Session.start.step env (.array ⟨.dense, Mat.of 0 2 fun _ _ => 0⟩))
    (.step _ .start (by simp [HCall.args])) ty (i := 0) (t := ⟨.dense, Mat.of 0 2 fun _ _ => 0⟩) (by
      show some (⟨.dense, (Mat.of 0 2 fun _ _ => (0 : ℝ)).reshape 0 2⟩ : TMat ℝ) = _
      rw [show (Mat.of 0 2 fun _ _ => (0 : ℝ)).reshape 0 2 = _ from Mat.reshape_self (Mat.of 0 2 fun _ _ => (0 : ℝ))])).2.1 rfl rfl
  unfold TMat.ofNumpy at h
  rw [if_pos (.inl (by rfl))] at h
  exact h

example (env : Env) : Computes (HM.scaling .plog 1 none) (oneDense env).heap (ScalingT.plog.apply ⟨.dense, onePair⟩ none) :=
  C93_scaling (oneDense_reachable env) (oneDense_matrix env) .plog none

/-- No random draws. -/
def noChance : Chance := ⟨fun _ => [], fun _ => [], fun _ => false⟩

example (env : Env) : Computes (HM.project true 1 1) (oneDense env).heap
    ((Op.dimred (.nmf 1 noChance) (some ⟨.dense, onePair⟩) : Op String).project ⟨.dense, onePair⟩) :=
  C93_project (oneDense_reachable env) (oneDense_matrix env) (oneDense_matrix env) (.nmf 1 noChance)

example (env : Env) : (HM.linSim 1 1 (oneDense env).heap).2 = Dissect.linSim ⟨.dense, onePair⟩ ⟨.dense, onePair⟩ :=
  C93_lin (oneDense_reachable env) (oneDense_matrix env) (oneDense_matrix env)

/-- The word `x` as a function and as an argument. -/
def oneSpace : Space String := ⟨⟨.dense, onePair⟩, ["x"], [], Dict.empty.set "x" 0, Dict.empty, [], [1, 2]⟩

example (env : Env) : Computes (HM.lexOne false 1 1 0 0 [1, 2]) (oneDense env).heap
    (Dissect.lexOne false oneSpace oneSpace "x" "x") :=
  C93_lexical (oneDense_reachable env) (fs := oneSpace) (arg := oneSpace) (oneDense_matrix env) (oneDense_matrix env) false
    (f := "x") (w := "x") rfl rfl

/-- `y = SparseMatrix(x)`: a later `y.to_ones()` leaves `x` alone, and a later `x.to_ones()` leaves `y` alone. -/
example (env : Env) : ∃ h', (HCall.wrap .sparse 1).step env (oneDense env).heap = (h', .ok [2]) ∧
    (h'.run env [.inPlace .ones 2]).view 1 = some ⟨.dense, onePair⟩ ∧
    (h'.run env [.inPlace .ones 1]).view 2 = h'.view 2 := by
  have h2 : (HCall.wrap .sparse 1).step env (oneDense env).heap =
      (((HCall.wrap .sparse 1).step env (oneDense env).heap).1, .ok [2]) := rfl
  refine ⟨_, h2, ?_, ?_⟩
  · rw [← oneDense_view env]
    exact (C94_convert (oneDense_reachable env) (ty := .sparse) (oneDense_view env) (by decide) h2 (r := 2)
      (by simp) (j := 1) (by rw [oneDense_length]; decide) _).1 (by intro c hc; rw [List.mem_singleton] at hc; exact ⟨.ones, 2, hc, rfl⟩)
  · exact (C94_convert (oneDense_reachable env) (ty := .sparse) (oneDense_view env) (by decide) h2 (r := 2)
      (by simp) (j := 1) (by rw [oneDense_length]; decide) _).2 (by
        intro c hc; rw [List.mem_singleton] at hc; exact ⟨.ones, 1, hc, by rw [oneDense_length]; decide⟩)

example (env : Env) : (InPlace.ones.run 1 (oneDense env).heap).2 = .ok () :=
  ((C95_receiver (oneDense_reachable env) .ones (oneDense_matrix env)).1 _ rfl).1

/-! ## C124 -/

example (sched : List (Fin 3)) (h : sched.count 0 < 3) : ¬ ((exThree.run sched).prog 0).Done :=
  C124_not_sooner exThree_separate sched 0 (lt_of_lt_of_le h (by decide))

example (sched : List (Fin 3)) : SameAt ((exThree.run sched).view 1) (exThree.view 1) [cs!"d", cs!"c"] :=
  C124_untouched exThree_separate sched 1 (fun j hj => by
    match j with
    | 0 =>
      have h' : ([cs!"d", cs!"c"] = (exThree.view 0).resolve cs!"/d/a" ∧ ∃ q, ((exThree.view 0).openCall cs!"/d/a").1 = .ok q) ∨
        [cs!"d", cs!"c"] = [cs!"d", cs!"a"] ∨ [cs!"d", cs!"c"] = [cs!"d", cs!"a"] ∨ False := hj
      rcases h' with ⟨h, -⟩ | h | h | h
      · exact absurd (show [cs!"d", cs!"c"] = [cs!"d", cs!"a"] from h) (by decide)
      · exact absurd h (by decide)
      · exact absurd h (by decide)
      · exact h
    | 1 =>
      have h' : ([cs!"d", cs!"c"] = (exThree.view 1).resolve cs!"/d/b" ∧ ∃ q, ((exThree.view 1).openCall cs!"/d/b").1 = .ok q) ∨
        [cs!"d", cs!"c"] = [cs!"d", cs!"b"] ∨ False := hj
      rcases h' with ⟨h, -⟩ | h | h
      · exact absurd (show [cs!"d", cs!"c"] = [cs!"d", cs!"b"] from h) (by decide)
      · exact absurd h (by decide)
      · exact h
    | 2 => exact (show False from hj))

theorem exThree_steps (i : Fin 3) : (exThree.prog i).steps (exThree.view i) ≤ 5 := by
  match i with
  | 0 => exact (by decide : 3 ≤ 5)
  | 1 => exact (by decide : 3 ≤ 5)
  | 2 => exact (by decide : 1 ≤ 5)

example (sched sched' : List (Fin 3)) (h : ∀ i, 5 ≤ sched.count i) (h' : ∀ i, 5 ≤ sched'.count i) :
    ∀ i n, SameAt ((exThree.run sched).view i) ((exThree.run sched').view i) n :=
  (C124_schedules_agree exThree_separate sched sched'
    (fun i => C124_progress exThree_separate sched i (le_trans (exThree_steps i) (h i)))
    (fun i => C124_progress exThree_separate sched' i (le_trans (exThree_steps i) (h' i)))).2

/-! ## C125 -/

example (L : Lib) (files : Dict (List Str) Str) (sched : List Bool) :
    ∃ (st : Bool → Settings) (N : ℕ), N ≤ sched.count true →
      EndsAsAlone L ⟨[cs!"home"], [[], [cs!"home"], [cs!"data"], [cs!"out"]], files⟩ .apply
        ((cond true exApplyArgs exCoreArgs).map Given.render).flatten (st true)
        (((startScripts L [[], [cs!"home"], [cs!"data"], [cs!"out"]] files (fun _ => [cs!"home"])
          (fun b => cond b Tool.apply Tool.core)
          (fun b => ((cond b exApplyArgs exCoreArgs).map Given.render).flatten)).run sched).prog true)
        (((startScripts L [[], [cs!"home"], [cs!"data"], [cs!"out"]] files (fun _ => [cs!"home"])
          (fun b => cond b Tool.apply Tool.core)
          (fun b => ((cond b exApplyArgs exCoreArgs).map Given.render).flatten)).run sched).view true) := by
  obtain ⟨st, h1, h2, h3⟩ := exTwo_scripts L files
  obtain ⟨N, hN⟩ := C125_scripts_end (cwd := fun _ => [cs!"home"]) (sc := fun b => cond b Tool.apply Tool.core)
    (argv := fun b => ((cond b exApplyArgs exCoreArgs).map Given.render).flatten) h1 h2 true
  exact ⟨st, N, fun h => C125_scripts (cwd := fun _ => [cs!"home"]) (sc := fun b => cond b Tool.apply Tool.core)
    (argv := fun b => ((cond b exApplyArgs exCoreArgs).map Given.render).flatten) h1 h2 sched true (hN sched h)⟩

example (L : Lib) (files : Dict (List Str) Str) (sched : List Bool) :
    SameAt ((startScripts L [[], [cs!"home"], [cs!"data"], [cs!"out"]] files (fun _ => [cs!"home"])
          (fun b => cond b Tool.apply Tool.core)
          (fun b => ((cond b exApplyArgs exCoreArgs).map Given.render).flatten)).run sched |>.view true)
      ⟨[cs!"home"], [[], [cs!"home"], [cs!"data"], [cs!"out"]], files⟩ [cs!"data", cs!"in.pkl"] := by
  obtain ⟨st, h1, h2, h3⟩ := exTwo_scripts L files
  exact C125_scripts_untouched (cwd := fun _ => [cs!"home"]) (sc := fun b => cond b Tool.apply Tool.core)
    (argv := fun b => ((cond b exApplyArgs exCoreArgs).map Given.render).flatten) h1 h2 sched true (fun j hj => by
      obtain ⟨-, name, -, hp⟩ := mayWrite_claims (h3 j).2 hj
      rw [(h3 j).1] at hp
      revert hp
      exact fun hp => absurd (List.cons_prefix_cons.1 hp).1 (by decide))

/-- Outputs in `/a` and in `/b`. -/
example (n : List Str) (st : Bool → Settings) (h0 : st false cs!"out_dir" = .str cs!"/a") (h1 : st true cs!"out_dir" = .str cs!"/b")
    (h : Tool.core.Claims [cs!"home"] (st false) n) : ¬ Tool.core.Claims [cs!"home"] (st true) n :=
  C125_different_directories (cwd := fun _ => [cs!"home"]) (sc := fun _ => .core) (st := st) (i := false) (j := true)
    (by unfold Tool.outNode; rw [h0, h1]; decide) (by unfold Tool.outNode; rw [h0, h1]; decide) h

/-! ## C126, C127 -/

example (x y : Str) (sched : List Bool) (h : x.length + 2 ≤ sched.count false) :
    (((⟨[[], [cs!"home"]], Dict.empty, fun _ => [cs!"home"],
        fun b => saveP (cond b y x) (cond b cs!"/home/b" cs!"./a")⟩ : Sys Bool Unit).run sched).view false).read cs!"./a" =
      .ok x :=
  (C126_save_partial (cwd := fun _ => [cs!"home"]) (fun b => cond b y x) (fun b => cond b cs!"/home/b" cs!"./a") exSave_ok
    (by intro i j hij; revert hij; cases i <;> cases j <;> decide) sched false h).2

example (x y : Str) (sched : List Bool) :
    (((exLoad x y).run sched).files.get? [cs!"home", cs!"f"] = some x ∨
      ∃ part, part <+: y ∧ ((exLoad x y).run sched).files.get? [cs!"home", cs!"f"] = some part) :=
  (C127_disk_partial (exLoad_ok x y).1 (txt := y) (a := []) rfl (exLoad_ok x y).2.1 sched).2.2

example (x y : Str) (sched : List Bool) (hd : (((exLoad x y).run sched).prog false).Done) :
    ((exLoad x y).run sched).files.get? [cs!"home", cs!"f"] = some y :=
  (C127_complete_partial (exLoad_ok x y).1 (txt := y) (a := []) rfl (exLoad_ok x y).2.1 sched hd).2

example (x y : Str) (sched : List Bool) (hd : (((exLoad x y).run sched).prog true).Done) :
    ((exLoad x y).run sched).prog true = .ret x ∨ ∃ part, part <+: y ∧ ((exLoad x y).run sched).prog true = .ret part :=
  C127_load_partial (i := false) (j := true) (by decide) (exLoad_ok x y).1 (txt := y) (a := []) rfl (exLoad_ok x y).2.1
    (exLoad_ok x y).2.2 sched hd

end Examples
end
end Dissect
