import Verif.Model.Matrix
import Mathlib.Analysis.SpecialFunctions.Sqrt

/-! # Specification: non-negative double singular value decomposition (Boutsidis & Gallopoulos)

The starting point for NMF computed from singular triples `(uᵢ, sᵢ, vᵢ)`: the first triple contributes the rank-one
matrix `s₀ |u₀| |v₀|ᵀ`; every later one contributes `sᵢ uᵢ⁺ (vᵢ⁺)ᵀ` or `sᵢ uᵢ⁻ (vᵢ⁻)ᵀ`, whichever is longer. -/

namespace Dissect
open Finset
noncomputable section

/-- Euclidean length of the positive part of `x 0, …, x (n-1)`. -/
def lenPos (n : ℕ) (x : ℕ → ℝ) : ℝ := Real.sqrt (∑ i ∈ range n, max (x i) 0 ^ 2)
/-- Euclidean length of the negative part. -/
def lenNeg (n : ℕ) (x : ℕ → ℝ) : ℝ := Real.sqrt (∑ i ∈ range n, max (-x i) 0 ^ 2)

/-- Entry `(r, c)` of the rank-one matrix that triple number `i` contributes (`u` is `n × _`, `v` is `p × _`). -/
def nndsvdEntry (n p : ℕ) (u : Mat ℝ) (s : List ℝ) (v : Mat ℝ) (i r c : ℕ) : ℝ :=
  if i = 0 then s.getD 0 0 * (|u.get r 0| * |v.get c 0|)
  else if lenNeg n (fun a => u.get a i) * lenNeg p (fun a => v.get a i) ≤
      lenPos n (fun a => u.get a i) * lenPos p (fun a => v.get a i) then
    s.getD i 0 * (max (u.get r i) 0 * max (v.get c i) 0)
  else s.getD i 0 * (max (-u.get r i) 0 * max (-v.get c i) 0)

/-- `(w, h)` are the starting factors with inner dimension `k` made from the triples in `u`, `s`, `v`: non-negative,
of the right shapes, column `i` of `w` times row `i` of `h` being the contribution of triple `i`, and zero columns and
rows where there are no triples left. -/
structure NndsvdStart (m u : TMat ℝ) (s : List ℝ) (v : TMat ℝ) (k : ℕ) (w h : TMat ℝ) : Prop where
  wty : w.ty = m.ty
  hty : h.ty = m.ty
  wnr : w.nr = m.nr
  wnc : w.nc = k
  hnr : h.nr = k
  hnc : h.nc = m.nc
  wpos : ∀ r i, r < m.nr → i < k → 0 ≤ w.val.get r i
  hpos : ∀ i c, i < k → c < m.nc → 0 ≤ h.val.get i c
  prod : ∀ i r c, i < u.nc → r < m.nr → c < m.nc →
    w.val.get r i * h.val.get i c = nndsvdEntry m.nr m.nc u.val s v.val i r c
  wpad : ∀ i r, u.nc ≤ i → w.val.get r i = 0
  hpad : ∀ i c, u.nc ≤ i → h.val.get i c = 0

end
end Dissect
