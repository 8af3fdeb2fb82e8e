import Verif.Spec.Svd
import Verif.Spec.TrainOrder
import Verif.Model.Linalg

/-! # Specification: what the documentation of the numerical libraries promises -/

namespace Dissect

/-- The numerical libraries do what their documentation says, on every input. Most theorems assume only the part of this
that concerns the calls which are made; `idealEnv_ideal` shows that all of it can be had at once. -/
structure Env.Ideal (env : Env) : Prop where
  /-- `numpy.linalg.svd` is a singular value decomposition -/
  svd : ∀ A, ∃ u s vt, env.npSvd A = .ok (u, s, vt) ∧ IsSvd A u s vt
  /-- `sparsesvd` returns the largest `k` singular triples, the left vectors as rows -/
  sparse : ∀ A k, ∃ ut s vt, env.sparseSvd A k = .ok (ut, s, vt) ∧ TopTriples A k ut.transpose s vt
  /-- `numpy.linalg.pinv` is the pseudo-inverse -/
  pinv : ∀ M, ∃ P, env.npPinv M = .ok P ∧ IsPinv M P
  /-- `numpy.linalg.lstsq` is the shortest least-squares solution -/
  lstsq : ∀ A B, ∃ X, env.npLstsq A B = .ok X ∧ IsMinNormLstsq A B X

/-- In particular what `np.linalg.lstsq` returns has the least squared error. -/
theorem Env.Ideal.solves {env : Env} (h : env.Ideal) (A B : Mat ℝ) :
    ∃ X, env.npLstsq A B = .ok X ∧ IsLstsq A B X := by
  obtain ⟨X, h1, h2⟩ := h.lstsq A B
  exact ⟨X, h1, h2.solves⟩

end Dissect
