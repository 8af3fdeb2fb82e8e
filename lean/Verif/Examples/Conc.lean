import Verif.Props.ConcShared
import Verif.Props.ConcScript

/-! # Concrete instances of the theorems about files written by several processes (C136, C137) -/

namespace Dissect
noncomputable section
namespace Examples

/-! ## C136 -/

/-- Three processes: two save `x` to the same file under different names, the third saves `y` next to it. -/
example (x y : Str) (sched : List (Fin 3)) (h : ∀ i, x.length + y.length + 2 ≤ sched.count i) :
    (((⟨[[], [cs!"home"]], Dict.empty, fun _ => [cs!"home"],
        fun i => saveP (if i = 2 then y else x) (if i = 0 then cs!"/home/a" else if i = 1 then cs!"./a" else cs!"./b")⟩ :
        Sys (Fin 3) Unit).run sched).files.get? [cs!"home", cs!"a"]) = some x := by
  have hs : ∀ i : Fin 3, Saveable ⟨[cs!"home"], [[], [cs!"home"]], Dict.empty⟩
      (if i = 0 then cs!"/home/a" else if i = 1 then cs!"./a" else cs!"./b") := by
    intro i
    match i with
    | 0 => exact ⟨by decide, by decide, by decide, by decide, by decide⟩
    | 1 => exact ⟨by decide, by decide, by decide, by decide, by decide⟩
    | 2 => exact ⟨by decide, by decide, by decide, by decide, by decide⟩
  have hsame : ∀ i j : Fin 3, nodeOf [cs!"home"] (if i = 0 then cs!"/home/a" else if i = 1 then cs!"./a" else cs!"./b") =
      nodeOf [cs!"home"] (if j = 0 then cs!"/home/a" else if j = 1 then cs!"./a" else cs!"./b") →
      (if i = 2 then y else x) = (if j = 2 then y else x) := by
    intro i j hij
    have : i = 2 ↔ j = 2 := by
      revert i j; decide
    rw [if_congr this rfl rfl]
  have := C136_save (cwd := fun _ => [cs!"home"]) (fun i : Fin 3 => if i = 2 then y else x)
    (fun i => if i = 0 then cs!"/home/a" else if i = 1 then cs!"./a" else cs!"./b") hs hsame sched
  refine this.2.1 0 (fun j _ => ?_)
  rw [this.1 j (le_trans (by
    by_cases hj : j = 2
    · simp only [hj, if_true]; omega
    · simp only [if_neg hj]; omega) (h j))]
  trivial

/-- The disk of the next examples: the same pickled space in `/data` and in `/home`. -/
def twoInputs : Dict (List Str) Str := ((Dict.empty).set [cs!"data", cs!"a.pkl"] cs!"S").set [cs!"home", cs!"a.pkl"] cs!"S"

/-- Its directories. -/
def twoDirs : List (List Str) := [[], [cs!"home"], [cs!"data"], [cs!"out"]]

theorem core_settled (L : Lib) (b : Bool) : ∃ st : Settings,
    Tool.core.Settled L ⟨[cs!"home"], twoDirs, twoInputs⟩ ((coreArgs (cond b cs!"/home/a" cs!"/data/a")).map Given.render).flatten st ∧
    Tool.core.Outputs [cs!"home"] st [cs!"out", cs!"CORE_SS.a.pkl"] ∧
    (∀ n, Tool.core.Outputs [cs!"home"] st n → n ∈ [[cs!"out", cs!"CORE_SS.a.pkl"], [cs!"out", cs!"CORE_SS.a.dm"],
      [cs!"out", cs!"CORE_SS.a.sm"], [cs!"out", cs!"CORE_SS.a.rows"], [cs!"out", cs!"CORE_SS.a.cols"]]) ∧
    ∀ n, Tool.core.Inputs [cs!"home"] ((coreArgs (cond b cs!"/home/a" cs!"/data/a")).map Given.render).flatten st n →
      n = [cs!"out"] ∨ n.head? = some cs!"data" ∨ n.head? = some cs!"home" := by
  have hv : ∀ g ∈ coreArgs (cond b cs!"/home/a" cs!"/data/a"), g.Valid docCore := by
    intro g hg; simp only [coreArgs, List.mem_cons, List.not_mem_nil, or_false] at hg
    rcases hg with rfl | rfl | rfl <;> simp [Given.Valid, docCore]
  obtain ⟨st, a1, a2⟩ := parse_values (documentedScripts_ok (cliCore, docCore) (by simp [documentedScripts])) L.parseCfg
    ⟨[cs!"home"], twoDirs, twoInputs⟩ (coreArgs (cond b cs!"/home/a" cs!"/data/a")) hv [] (by intro a ha; cases ha) (fun _ => none) rfl
  have hg := getopt_givens (documentedScripts_ok (cliCore, docCore) (by simp [documentedScripts]))
      (getopt_positional (short := cliCore.short) (longs := cliCore.longs) (tail := []) (by intro a ha; cases ha)) hv
  rw [List.append_nil] at a1 hg
  have v : ∀ o ∈ docCore, st o.var = wanted (coreArgs (cond b cs!"/home/a" cs!"/data/a")) (fun _ => none) o := a2
  have e1 : st cs!"in_file_prefix" = .str (cond b cs!"/home/a" cs!"/data/a") := v docCore[0] (by simp [docCore])
  have e2 : st cs!"out_dir" = .str cs!"/out" := v docCore[1] (by simp [docCore])
  have e3 : st cs!"weightings" = .none := v docCore[2] (by simp [docCore])
  have e4 : st cs!"selections" = .none := v docCore[3] (by simp [docCore])
  have e5 : st cs!"reductions" = .none := v docCore[4] (by simp [docCore])
  have e6 : st cs!"normalizations" = .none := v docCore[5] (by simp [docCore])
  have e7 : st cs!"log_file" = .none := v docCore[6] (by simp [docCore])
  have e8 : st cs!"in_format" = .str cs!"pkl" := v docCore[7] (by simp [docCore])
  have hp : ∀ p, Tool.core.OutFile st p → ∃ e ∈ Tool.spaceExts, p = cs!"/out/CORE_SS.a" ++ e := by
    rintro p ⟨nm, ⟨w, hw, s, hs, r, hr, n, hn, e, he, rfl⟩, rfl⟩
    rw [e3] at hw; rw [e4] at hs; rw [e5] at hr; rw [e6] at hn
    obtain rfl : w = none := by simpa [OptVal.asTokens] using hw
    obtain rfl : s = none := by simpa [OptVal.asTokens] using hs
    obtain rfl : r = none := by simpa [OptVal.asTokens] using hr
    obtain rfl : n = none := by simpa [OptVal.asTokens] using hn
    refine ⟨e, he, ?_⟩
    rw [e1, e2]
    cases b <;> rfl
  refine ⟨st, ⟨a1, ?_, ?_⟩, ⟨cs!"/out/CORE_SS.a.pkl", ⟨cs!"CORE_SS.a.pkl", ⟨none, by rw [e3]; exact List.mem_singleton.2 rfl, none, by rw [e4]; exact List.mem_singleton.2 rfl, none,
    by rw [e5]; exact List.mem_singleton.2 rfl, none, by rw [e6]; exact List.mem_singleton.2 rfl, cs!".pkl", by decide, by rw [e1]; cases b <;> rfl⟩,
    by rw [e2]; rfl⟩, by decide⟩, ?_, ?_⟩
  · intro p h
    obtain ⟨e, he, rfl⟩ := hp p h
    have : ∀ e ∈ Tool.spaceExts, Saveable ⟨[cs!"home"], twoDirs, Dict.empty⟩ (cs!"/out/CORE_SS.a" ++ e) := by
      intro e he
      simp only [Tool.spaceExts, List.mem_cons, List.not_mem_nil, or_false] at he
      rcases he with rfl | rfl | rfl | rfl | rfl <;> exact ⟨by decide, by decide, by decide, by decide, by decide⟩
    obtain ⟨g1, g2, g3, g4, g5⟩ := this e he
    exact ⟨g1, g2, g3, g4, g5⟩
  · intro f hf
    rw [e7] at hf
    cases hf
  · rintro n ⟨p, h, rfl⟩
    obtain ⟨e, he, rfl⟩ := hp p h
    exact (by decide : ∀ e ∈ Tool.spaceExts, nodeOf [cs!"home"] (cs!"/out/CORE_SS.a" ++ e) ∈
      [[cs!"out", cs!"CORE_SS.a.pkl"], [cs!"out", cs!"CORE_SS.a.dm"], [cs!"out", cs!"CORE_SS.a.sm"],
        [cs!"out", cs!"CORE_SS.a.rows"], [cs!"out", cs!"CORE_SS.a.cols"]]) e he
  · rintro n ((h | ⟨f, h, -⟩ | ⟨f, hf, rfl⟩ | ⟨d, h, -⟩) | ⟨f, hf, -⟩)
    · left
      rw [h]
      unfold Tool.outNode
      rw [e2]
      rfl
    · unfold Tool.configFile at h
      rw [show Tool.core.cli = cliCore from rfl, hg] at h
      cases h
    · right
      have hf' : f ∈ Tool.spaceFiles (st cs!"in_file_prefix").strD (st cs!"in_format").strD := hf
      rw [e1, e8] at hf'
      cases b
      · have : f ∈ [cs!"/data/a.rows", cs!"/data/a.cols", cs!"/data/a.pkl", cs!"/data/a.pkl.gz"] := hf'
        simp only [List.mem_cons, List.not_mem_nil, or_false] at this
        rcases this with rfl | rfl | rfl | rfl <;> exact Or.inl (by decide)
      · have : f ∈ [cs!"/home/a.rows", cs!"/home/a.cols", cs!"/home/a.pkl", cs!"/home/a.pkl.gz"] := hf'
        simp only [List.mem_cons, List.not_mem_nil, or_false] at this
        rcases this with rfl | rfl | rfl | rfl <;> exact Or.inr (by decide)
    · cases h
    · rw [e7] at hf
      cases hf

theorem core_alone {L : Lib} (hL : L.evalBool cs!"False" = .ok (some false)) {s : Space Str}
    (hu : L.undump cs!"S" = some (.space s)) (b : Bool) :
    Tool.core.alone L ⟨[cs!"home"], twoDirs, twoInputs⟩ ((coreArgs (cond b cs!"/home/a" cs!"/data/a")).map Given.render).flatten =
      .ok ([], ⟨[cs!"home"], twoDirs, twoInputs.set [cs!"out", cs!"CORE_SS.a.pkl"] (L.dump (.space s))⟩) := by
  have hsave : Saveable ⟨[cs!"home"], twoDirs, twoInputs⟩ cs!"/out/CORE_SS.a.pkl" := by
    have : Saveable ⟨[cs!"home"], twoDirs, Dict.empty⟩ cs!"/out/CORE_SS.a.pkl" :=
      ⟨by decide, by decide, by decide, by decide, by decide⟩
    obtain ⟨g1, g2, g3, g4, g5⟩ := this
    exact ⟨g1, g2, g3, g4, g5⟩
  have solo : (Tool.core.prog L ((coreArgs (cond b cs!"/home/a" cs!"/data/a")).map Given.render).flatten).solo
      ⟨[cs!"home"], twoDirs, twoInputs⟩ =
      (.ok [], ⟨[cs!"home"], twoDirs, twoInputs.set [cs!"out", cs!"CORE_SS.a.pkl"] (L.dump (.space s))⟩) := by
    obtain ⟨k, k1, k2⟩ := coreArgs_saves hL hu (cond b cs!"/home/a" cs!"/data/a")
    rw [k1]
    cases b
    · show (k (.ok cs!"S")).solo _ = _
      rw [k2]
      exact thenDone_solo (saving_solo hsave)
    · show (k (.ok cs!"S")).solo _ = _
      rw [k2]
      exact thenDone_solo (saving_solo hsave)
  obtain ⟨s1, s2⟩ := script_solo L ⟨[cs!"home"], twoDirs, twoInputs⟩
    ((coreArgs (cond b cs!"/home/a" cs!"/data/a")).map Given.render).flatten .core
  cases ha : Tool.core.alone L ⟨[cs!"home"], twoDirs, twoInputs⟩
      ((coreArgs (cond b cs!"/home/a" cs!"/data/a")).map Given.render).flatten with
  | error e =>
    obtain ⟨g', h⟩ := s2 e ha
    rw [solo] at h
    cases h
  | ok x =>
    obtain ⟨r, g'⟩ := x
    have := s1 r g' ha
    rw [solo] at this
    injection this with h1 h2
    injection h1 with h1
    rw [h1, h2]

theorem core_apart {L : Lib} {b : Bool} {st st' : Settings} {n : List Str}
    (h1 : ∀ n, Tool.core.Inputs [cs!"home"] ((coreArgs (cond b cs!"/home/a" cs!"/data/a")).map Given.render).flatten st n →
      n = [cs!"out"] ∨ n.head? = some cs!"data" ∨ n.head? = some cs!"home")
    (h2 : ∀ n, Tool.core.Outputs [cs!"home"] st' n → n ∈ [[cs!"out", cs!"CORE_SS.a.pkl"], [cs!"out", cs!"CORE_SS.a.dm"],
      [cs!"out", cs!"CORE_SS.a.sm"], [cs!"out", cs!"CORE_SS.a.rows"], [cs!"out", cs!"CORE_SS.a.cols"]])
    (hi : Tool.core.Inputs [cs!"home"] ((coreArgs (cond b cs!"/home/a" cs!"/data/a")).map Given.render).flatten st n) :
    ¬ Tool.core.Outputs [cs!"home"] st' n := by
  intro ho
  have a := h1 n hi
  have c := h2 n ho
  exact (by decide : ∀ n ∈ [[cs!"out", cs!"CORE_SS.a.pkl"], [cs!"out", cs!"CORE_SS.a.dm"],
      [cs!"out", cs!"CORE_SS.a.sm"], [cs!"out", cs!"CORE_SS.a.rows"], [cs!"out", cs!"CORE_SS.a.cols"]],
      ¬ (n = [cs!"out"] ∨ n.head? = some cs!"data" ∨ n.head? = some cs!"home")) n c a

/-- `build_core_space.py` is run at the same time on two copies of the same space, with the same output directory: both
runs succeed, and the output file is complete. -/
example {L : Lib} (hL : L.evalBool cs!"False" = .ok (some false)) {s : Space Str}
    (hu : L.undump cs!"S" = some (.space s)) :
    ∃ N : Bool → ℕ, ∀ sched : List Bool, (∀ b, N b ≤ sched.count b) →
      let fin := (startScripts L twoDirs twoInputs (fun _ => [cs!"home"]) (fun _ => .core)
        (fun b : Bool => ((coreArgs (cond b cs!"/home/a" cs!"/data/a")).map Given.render).flatten)).run sched
      (∀ b, fin.prog b = .ret []) ∧ fin.files.get? [cs!"out", cs!"CORE_SS.a.pkl"] = some (L.dump (.space s)) := by
  choose st h1 h4 h2 h3 using core_settled L
  obtain ⟨⟨N, hN⟩, h⟩ := C136_scripts (cwd := fun _ => [cs!"home"]) (sc := fun _ => .core)
    (argv := fun b : Bool => ((coreArgs (cond b cs!"/home/a" cs!"/data/a")).map Given.render).flatten) h1
    (fun i j n hi => core_apart (L := L) (h3 i) (h2 j) hi) (core_alone hL hu) (fun i j n _ _ => rfl)
  refine ⟨N, fun sched hs => ?_⟩
  have hd := fun b => hN sched b (hs b)
  refine ⟨fun b => (h sched).1 b (hd b), ?_⟩
  have := ((h sched).2 hd true [cs!"out", cs!"CORE_SS.a.pkl"]).1 (h4 true)
  rw [show ((startScripts L twoDirs twoInputs (fun _ => [cs!"home"]) (fun _ => .core)
        (fun b : Bool => ((coreArgs (cond b cs!"/home/a" cs!"/data/a")).map Given.render).flatten)).run sched).files.get? _ = _ from
    this.2]
  show (twoInputs.set _ _).get? _ = _
  rw [Dict.get?_set, if_pos rfl]

/-- The same command, run by any number of processes at once. -/
example {L : Lib} (hL : L.evalBool cs!"False" = .ok (some false)) {s : Space Str}
    (hu : L.undump cs!"S" = some (.space s)) (sched : List ℕ)
    (hd : ∀ i, (((startScripts (ι := ℕ) L twoDirs twoInputs (fun _ => [cs!"home"]) (fun _ => .core)
        (fun _ => ((coreArgs cs!"/data/a").map Given.render).flatten)).run sched).prog i).Done) :
    ((startScripts (ι := ℕ) L twoDirs twoInputs (fun _ => [cs!"home"]) (fun _ => .core)
        (fun _ => ((coreArgs cs!"/data/a").map Given.render).flatten)).run sched).files.get? [cs!"out", cs!"CORE_SS.a.pkl"] =
      some (L.dump (.space s)) := by
  obtain ⟨st, h1, -, h2, h3⟩ := core_settled L false
  have h := C136_same_command (ι := ℕ) (sc := .core) (argv := ((coreArgs cs!"/data/a").map Given.render).flatten) h1
    (fun n hi => core_apart (L := L) (b := false) h3 h2 hi) sched
  have := (h.2.1 hd 0 [cs!"out", cs!"CORE_SS.a.pkl"]).2
  rw [h.2.2 _ _ (core_alone hL hu false)] at this
  refine this.trans ?_
  show (twoInputs.set _ _).get? _ = _
  rw [Dict.get?_set, if_pos rfl]

/-! ## C137 -/

/-- Process `true` starts when process `false` is somewhere in the middle. -/
example (x y : Str) (k : ℕ) :
    (((⟨[[], [cs!"home"]], Dict.empty, fun _ => [cs!"home"], fun b => saveP (cond b y x) cs!"/home/f"⟩ :
      Sys Bool Unit).run (List.replicate k false ++ List.replicate (y.length + 2) true)).files.get? [cs!"home", cs!"f"]) = some y :=
  (C137_last_partial (cwd := fun _ => [cs!"home"]) (fun b => cond b y x) (fun _ => cs!"/home/f")
    (fun _ => ⟨by decide, by decide, by decide, by decide, by decide⟩) (List.replicate k false) true
    (by rw [List.count_replicate]; rfl) (y.length + 2) (le_refl _)).2

end Examples
end
end Dissect
