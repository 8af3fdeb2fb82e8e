import Verif.Examples.RowLaws
import Verif.Props.PeriphClasses

/-! # Concrete instances: C163 -/

namespace Dissect
open Finset
noncomputable section
namespace Examples

theorem herd_coreOf (env : Env) (ty : MTy) (st : ScalingT) (core : Space String)
    (h : (herd ty).applyAll env [.scaling st, .featsel 1 .sum] = .ok core) :
    CoreOf env (herd ty) core [.scaling st, .featsel 1 .sum] :=
  ⟨herd_wf ty, herd_ops ty, by rw [herd_nr]; decide, by rw [herd_nc]; decide, herd_exact st, herd_noSvd env ty st, h⟩

theorem selRows_pair (A : Mat ℝ) (i j : ℕ) : (A.selRows [i]).vstack (A.selRows [j]) = A.selRows [i, j] := by
  refine Mat.ext' rfl rfl fun a b ha _ => ?_
  have ha' : a < 2 := ha
  rw [Mat.vstack_get (A := A.selRows [i]) (B := A.selRows [j]) rfl]
  by_cases h : a < 1
  · obtain rfl : a = 0 := by omega
    rw [if_pos (show 0 < (A.selRows [i]).nr from Nat.one_pos), Mat.selRows_get_some (rows := [i]) (r := i) rfl,
      Mat.selRows_get_some (rows := [i, j]) (r := i) rfl]
  · obtain rfl : a = 1 := by omega
    rw [if_neg (show ¬ 1 < (A.selRows [i]).nr from by show ¬ 1 < 1; omega)]
    show (A.selRows [j]).get (1 - 1) b = _
    rw [Mat.selRows_get_some (rows := [j]) (r := j) rfl, Mat.selRows_get_some (rows := [i, j]) (r := j) rfl]

/-- Two raw rows, the second one added later, always work. -/
theorem two_steps (env : Env) (raw core : Space String) (ts : List Trans) (h : CoreOf env raw core ts) (ty : MTy) (i j : ℕ)
    (hi : i < raw.mat.nr) (hj : j < raw.mat.nr) (x y : String) (hxy : x ≠ y) :
    ∃ q p, Periph.new core ⟨ty, raw.mat.val.selRows [i]⟩ [x] none = .ok q ∧
      Periph.addBatches q [(⟨ty, raw.mat.val.selRows [j]⟩, [y])] = .ok p := by
  obtain ⟨p, hp, _⟩ := C24_core_rows_reproduced env raw core ts h.wf h.fresh h.nr h.nc h.exact h.svd h.made ty [i, j] (by simp)
    (by simp [hi, hj]) [x, y] (by simp [hxy]) rfl
  rw [← selRows_pair] at hp
  obtain ⟨q, h1, h2⟩ := (batches_iff (applyAll_cols h.fresh h.made) ((applyAll_rows h.made).2.2 h.wf).cols
    [(⟨ty, raw.mat.val.selRows [j]⟩, [y])] ⟨ty, raw.mat.val.selRows [i]⟩ [x] p Nat.one_pos rfl
    (by show 0 < (opsMap core.ops).width raw.mat.nc; rw [h.repro.width]; exact h.repro.wide)
    (by
      intro b hb
      obtain rfl := List.mem_singleton.1 hb
      exact ⟨Nat.one_pos, rfl, rfl, rfl⟩)).2 hp
  exact ⟨q, p, h1, h2⟩

theorem one_batch {q p : Space String} {m : TMat ℝ} {ws : List String} (h : Periph.addBatches q [(m, ws)] = .ok p) :
    Periph.addRows q m ws = (p, .ok ()) := by
  unfold Periph.addBatches at h
  rcases ha : Periph.addRows q m ws with ⟨p', out⟩
  rw [ha] at h
  cases out with
  | error e => cases h
  | ok u =>
    have h' : (.ok p' : Py (Space String)) = .ok p := h
    obtain rfl := ok_inj h'
    rfl

/-- C163: building from sparse rows and from dense rows. -/
example (env : Env) : ∃ core p p', (herd .dense).applyAll env [.scaling .ppmi, .featsel 1 .sum] = .ok core ∧
    Periph.new core ⟨.sparse, (herd .dense).mat.val.selRows [2, 1]⟩ ["a", "b"] none = .ok p ∧
    Periph.new core ⟨.dense, (herd .dense).mat.val.selRows [2, 1]⟩ ["a", "b"] none = .ok p' ∧ Twin p p' := by
  obtain ⟨core, h⟩ := herd_core env .dense .ppmi
  obtain ⟨p, hp⟩ := herd_periph env .dense .sparse .ppmi core h [2, 1] (by simp) (by decide) ["a", "b"] (by decide) rfl
  obtain ⟨p', hp', tw⟩ := C163_new env _ core _ (herd_coreOf env _ _ core h)
    ((herd .dense).mat.val.selRows [2, 1]) (by show 0 < 2; decide) rfl .sparse .dense _ _ p hp
  exact ⟨core, p, p', h, hp, hp', tw⟩

/-- C163: one row first and one row later, both sparse or both dense; but not one of each. -/
example (env : Env) : ∃ core q p q' p', (herd .dense).applyAll env [.scaling .ppmi, .featsel 1 .sum] = .ok core ∧
    Periph.new core ⟨.sparse, (herd .dense).mat.val.selRows [2]⟩ ["a"] none = .ok q ∧
    Periph.addRows q ⟨.sparse, (herd .dense).mat.val.selRows [1]⟩ ["b"] = (p, .ok ()) ∧
    Periph.new core ⟨.dense, (herd .dense).mat.val.selRows [2]⟩ ["a"] none = .ok q' ∧
    Periph.addBatches q' [(⟨.dense, (herd .dense).mat.val.selRows [1]⟩, ["b"])] = .ok p' ∧ Twin p p' ∧
    (Periph.addRows q ⟨.dense, (herd .dense).mat.val.selRows [1]⟩ ["b"]).2 = .error .typeError := by
  obtain ⟨core, h⟩ := herd_core env .dense .ppmi
  have hc := herd_coreOf env _ _ core h
  obtain ⟨q, p, hq, hp⟩ := two_steps env _ core _ hc .sparse 2 1 (by rw [herd_nr]; decide) (by rw [herd_nr]; decide) "a" "b"
    (by decide)
  obtain ⟨q', p', hq', hp', _, tw⟩ := C163_same_class_partial env _ core _ hc ((herd .dense).mat.val.selRows [2]) Nat.one_pos rfl
    ["a"] [((herd .dense).mat.val.selRows [1], ["b"])] rfl
    (by simp only [List.mem_singleton, forall_eq]; exact ⟨Nat.one_pos, rfl, rfl⟩) .sparse .dense q p hq hp
  refine ⟨core, q, p, q', p', h, hq, one_batch hp, hq', hp', tw, ?_⟩
  exact (C163_other_class_refuted env _ core _ hc (by simp [Trans.Reduces]) _ Nat.one_pos _ _ q p hq
    ⟨.sparse, (herd .dense).mat.val.selRows [1]⟩ ⟨.dense, (herd .dense).mat.val.selRows [1]⟩ Nat.one_pos rfl rfl
    (by decide) ["b"] (one_batch hp)).1

/-- C163: with an SVD the classes may be mixed. -/
example : ∃ raw core q p : Space String, raw.applyAll exEnv [.dimred (.svd 2)] = .ok core ∧
    Periph.new core ⟨.sparse, raw.mat.val.selRows [0]⟩ ["a"] none = .ok q ∧
    Periph.addBatches q [(⟨.sparse, raw.mat.val.selRows [0]⟩, ["b"])] = .ok p ∧
    Periph.addBatches q [(⟨.dense, raw.mat.val.selRows [0]⟩, ["b"])] = .ok p := by
  obtain ⟨raw, core, ts, h1, h2, h3, h4, rfl, h6, h7, h8, h9, h10, _⟩ := ex_svd_core
  have hc : CoreOf exEnv raw core [.dimred (.svd 2)] := ⟨h1, h2, h3, h4, h6, h10, h7⟩
  obtain ⟨q, p, hq, hp⟩ := two_steps exEnv raw core _ hc .sparse 0 0 h3 h3 "a" "b" (by decide)
  exact ⟨raw, core, q, p, h7, hq, hp, C163_reduced_partial exEnv raw core _ hc ⟨_, List.mem_singleton_self _, trivial⟩ _ _ none
    [(⟨.sparse, raw.mat.val.selRows [0]⟩, ["b"])] [(⟨.dense, raw.mat.val.selRows [0]⟩, ["b"])]
    (.cons ⟨rfl, rfl⟩ .nil) (by simp only [List.mem_singleton, forall_eq]; exact ⟨Nat.one_pos, rfl⟩) q p hq hp⟩

end Examples
end
end Dissect
