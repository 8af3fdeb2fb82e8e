import Verif.Lemmas.Matrix
import Verif.Model.Linalg

/-! # Successful matrix operations on non-empty matrices of one class, and sums over `Mat` -/

namespace Dissect
open Finset
namespace TMat
variable {K : Type} [Field K]

theorem mul_ok {s t : TMat K} (hty : s.ty = t.ty) (h : s.nc = t.nr) (h1 : 0 < s.nr) (h2 : 0 < t.nc) :
    s.mul t = .ok ⟨s.ty, s.val.mul t.val⟩ := by
  unfold TMat.mul
  rw [if_pos hty, if_pos h]
  exact wrap_ok_pos h1 h2

theorem sub_ok {s t : TMat K} (hty : s.ty = t.ty) (hr : s.nr = t.nr) (hc : s.nc = t.nc) (h1 : 0 < s.nr)
    (h2 : 0 < s.nc) : s.sub t = .ok ⟨s.ty, s.val.sub t.val⟩ := by
  rw [sub_same hty hr hc]
  exact wrap_ok_pos h1 h2

theorem add_ok {s t : TMat K} (hty : s.ty = t.ty) (hr : s.nr = t.nr) (hc : s.nc = t.nc) (h1 : 0 < s.nr)
    (h2 : 0 < s.nc) : s.add t = .ok ⟨s.ty, s.val.add t.val⟩ := by
  rw [add_same hty hr hc]
  exact wrap_ok_pos h1 h2

theorem neg_ok {s : TMat K} (h1 : 0 < s.nr) (h2 : 0 < s.nc) : s.neg = .ok ⟨s.ty, s.val.neg⟩ :=
  wrap_ok_pos (A := s.val.neg) h1 h2

theorem mulScalar_ok {s : TMat K} (c : K) (h1 : 0 < s.nr) (h2 : 0 < s.nc) :
    s.mulScalar c = .ok ⟨s.ty, s.val.smul c⟩ :=
  wrap_ok_pos (A := s.val.smul c) h1 h2

theorem transpose_ok {s : TMat K} (h1 : 0 < s.nr) (h2 : 0 < s.nc) :
    s.transpose = .ok ⟨s.ty, s.val.transpose⟩ :=
  wrap_ok_pos (A := s.val.transpose) h2 h1

theorem multiply_ok {s t : TMat K} (hty : s.ty = t.ty) (hr : s.nr = t.nr) (hc : s.nc = t.nc) (h1 : 0 < s.nr)
    (h2 : 0 < s.nc) : s.multiply t = .ok ⟨s.ty, s.val.had t.val⟩ := by
  unfold TMat.multiply
  rw [if_pos hty, if_pos ⟨hr, hc⟩]
  exact wrap_ok_pos h1 h2

theorem hstack_ok {s t : TMat K} (hty : s.ty = t.ty) (hr : s.nr = t.nr) (h1 : 0 < s.nr) (h2 : 0 < s.nc + t.nc) :
    s.hstack t = .ok ⟨s.ty, s.val.hstack t.val⟩ := by
  unfold TMat.hstack
  rw [if_pos hty, if_pos hr]
  exact wrap_ok_pos h1 (by simpa using h2)

theorem vstack_ok {s t : TMat K} (hty : s.ty = t.ty) (hc : s.nc = t.nc) (h1 : 0 < s.nr + t.nr) (h2 : 0 < s.nc) :
    s.vstack t = .ok ⟨s.ty, s.val.vstack t.val⟩ := by
  unfold TMat.vstack
  rw [if_pos hty, if_pos hc]
  exact wrap_ok_pos (by simpa using h1) h2

theorem getNonNegative_ok [LinearOrder K] {s : TMat K} (h1 : 0 < s.nr) (h2 : 0 < s.nc) :
    s.getNonNegative = .ok ⟨s.ty, s.val.map (fun x => if 0 < x then x else 0)⟩ :=
  wrap_ok_pos (A := s.val.map (fun x => if 0 < x then x else 0)) h1 h2

end TMat

theorem Mat.takeCols_nc {A : Mat ℝ} {n : ℕ} (h : n ≤ A.nc) : (A.takeCols n).nc = n := by
  simp [Mat.takeCols, h]

theorem Mat.takeCols_get {A : Mat ℝ} {n : ℕ} (i : ℕ) {j : ℕ} (hj : j < n) (h : n ≤ A.nc) :
    (A.takeCols n).get i j = A.get i j := by
  refine Mat.selCols_get_some ?_ i
  rw [List.getElem?_take_of_lt hj, List.getElem?_range (by omega)]

theorem Mat.takeRows_nr {A : Mat ℝ} {n : ℕ} (h : n ≤ A.nr) : (A.takeRows n).nr = n := by
  simp [Mat.takeRows, h]

theorem Mat.takeRows_get {A : Mat ℝ} {n : ℕ} {i : ℕ} (j : ℕ) (hi : i < n) (h : n ≤ A.nr) :
    (A.takeRows n).get i j = A.get i j := by
  refine Mat.selRows_get_some ?_ j
  rw [List.getElem?_take_of_lt hi, List.getElem?_range (by omega)]

end Dissect
