import Verif.Examples.RowLaws
import Verif.Props.FindsItself

/-! # Concrete instances: C169 -/

namespace Dissect
open Finset
noncomputable section
namespace Examples

/-- `x` has the counts of `cat`: it finds `cat` among its neighbours in the weighted and reduced core. -/
example (env : Env) : ∃ core p res, (herd .dense).applyAll env [.scaling .ppmi, .featsel 1 .sum] = .ok core ∧
    Periph.new core ⟨.sparse, (herd .dense).mat.val.selRows [0, 3]⟩ ["y", "x"] none = .ok p ∧
    p.getSim "x" "cat" .euclid (some core) = .ok 1 ∧
    p.getNeighbours "x" 5 .euclid (some core) = .ok res ∧ ("cat", 1) ∈ res := by
  obtain ⟨core, h⟩ := herd_core env .dense .ppmi
  have hr0 : 0 < (herd .dense).mat.nr := by rw [herd_nr]; decide
  have hc0 : 0 < (herd .dense).mat.nc := by rw [herd_nc]; decide
  obtain ⟨p, hp, _⟩ := C24_core_rows_reproduced env _ core _ (herd_wf .dense) (herd_ops .dense) hr0 hc0 (herd_exact .ppmi)
    (herd_noSvd env .dense .ppmi) h .sparse [0, 3] (by simp) (by intro k hk; rw [herd_nr]; simp at hk; omega) ["y", "x"]
    (by decide) rfl
  obtain ⟨q1, res, q2, _, _, _, q3⟩ := C169_finds_itself env _ core p _ (herd_wf .dense) (herd_ops .dense) hr0 hc0
    (herd_exact .ppmi) (herd_noSvd env .dense .ppmi) h ⟨.sparse, (herd .dense).mat.val.selRows [0, 3]⟩ ["y", "x"] none hp
    rfl 1 3 (by show 1 < 2; decide) "x" "cat" rfl (by unfold Space.HasWord; rw [herd_words]; rfl)
    (fun j _ => Mat.selRows_get_some (rows := [0, 3]) (r := 3) rfl j) 5 (by decide) .euclid (Or.inl rfl)
  refine ⟨core, p, res, h, hp, q1, q2, q3 ?_⟩
  rw [(applyAll_rows h).1, herd_words]
  decide

end Examples
end
end Dissect
