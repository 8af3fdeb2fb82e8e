import Verif.Examples.PeriphClasses
import Verif.Props.RowLawsAdd

/-! # Concrete instances: C155, C156 for rows added later -/

namespace Dissect
open Finset
noncomputable section
namespace Examples

/-- `unicorn`, which has no counts, and `dogs`, added later to a peripheral space on a reduced core. -/
example (env : Env) : ∃ core q p q2 p2 r, (herd .dense).applyAll env [.scaling .ppmi, .featsel 1 .sum] = .ok core ∧
    Periph.new core ⟨.dense, (herd .dense).mat.val.selRows [0]⟩ ["a"] none = .ok q ∧
    Periph.addRows q ⟨.dense, (herd .dense).mat.val.selRows [2]⟩ ["b"] = (p, .ok ()) ∧
    (∀ j, p.mat.val.get (q.mat.nr + 0) j = 0) ∧
    Periph.new core ⟨.dense, (herd .dense).mat.val.selRows [3]⟩ ["a"] none = .ok q2 ∧
    Periph.addRows q2 ⟨.dense, (herd .dense).mat.val.selRows [1]⟩ ["b"] = (p2, .ok ()) ∧
    Periph.new core ⟨.sparse, (herd .dense).mat.val.selRows [2, 1]⟩ ["x", "y"] none = .ok r ∧
    ∀ j, p2.mat.val.get (q2.mat.nr + 0) j = r.mat.val.get 1 j := by
  obtain ⟨core, h⟩ := herd_core env .dense .ppmi
  have hc := herd_coreOf env _ _ core h
  obtain ⟨q, p, hq, hp⟩ := two_steps env _ core _ hc .dense 0 2 (by rw [herd_nr]; decide) (by rw [herd_nr]; decide) "a" "b"
    (by decide)
  obtain ⟨q2, p2, hq2, hp2⟩ := two_steps env _ core _ hc .dense 3 1 (by rw [herd_nr]; decide) (by rw [herd_nr]; decide)
    "a" "b" (by decide)
  obtain ⟨r, hr⟩ := herd_periph env .dense .sparse .ppmi core h [2, 1] (by simp) (by decide) ["x", "y"] (by decide) rfl
  have hcol : (herd .dense).mat.val.nc = 2 := herd_nc .dense
  refine ⟨core, q, p, q2, p2, r, h, hq, one_batch hp, ?_, hq2, one_batch hp2, hr, ?_⟩
  · refine (C155_added q p _ _ Nat.one_pos (one_batch hp)).2 0 fun j hj => ?_
    have hj' : j < (herd .dense).mat.val.nc := hj
    show ((herd .dense).mat.val.selRows [2]).get 0 j = 0
    rw [Mat.selRows_get_some (rows := [2]) (r := 2) rfl, herd_get _ _ _ (by decide) (by omega)]
    simp
  · refine (C156_added core q2 p2 r _ _ _ _ none (C156_added_again core q2 p2 _ _ _ _ none hq2 (one_batch hp2)).1 hr
      (one_batch hp2) 0 1 Nat.one_pos (by show 1 < 2; decide) rfl fun j _ => ?_).2
    show ((herd .dense).mat.val.selRows [1]).get 0 j = ((herd .dense).mat.val.selRows [2, 1]).get 1 j
    rw [Mat.selRows_get_some (rows := [1]) (r := 1) rfl, Mat.selRows_get_some (rows := [2, 1]) (r := 1) rfl]

end Examples
end
end Dissect
