import Verif.Model.MatrixUtils

/-! Helper lemmas about `TMat`. -/

namespace Dissect
open Finset

namespace TMat
variable {K : Type}

section Zero
variable [Zero K]

/-- A matrix object that a constructor of its class can have produced from a numpy result. -/
def NE (t : TMat K) : Prop := t.ty = .dense → 0 < t.nr ∧ 0 < t.nc

theorem wrap_eq_ok {ty : MTy} {A : Mat K} {t : TMat K} (h : wrap ty A = .ok t) :
    t = ⟨ty, A⟩ ∧ t.NE := by
  cases ty with
  | dense =>
    simp only [wrap] at h
    split at h
    · cases h
    · rename_i hb
      injection h with h
      subst h
      refine ⟨rfl, fun _ => ?_⟩
      simp only [nr, nc]
      omega
  | sparse =>
    simp only [wrap] at h
    injection h with h
    subst h
    exact ⟨rfl, fun hd => by cases hd⟩

theorem wrap_ok {ty : MTy} {A : Mat K} (h : ty = .dense → 0 < A.nr ∧ 0 < A.nc) :
    wrap ty A = .ok ⟨ty, A⟩ := by
  cases ty with
  | dense =>
    have := h rfl
    simp only [wrap]
    rw [if_neg (by omega)]
  | sparse => rfl

theorem wrap_dense_of_pos {A : Mat K} (h1 : 0 < A.nr) (h2 : 0 < A.nc) : wrap .dense A = .ok ⟨.dense, A⟩ :=
  wrap_ok (fun _ => ⟨h1, h2⟩)

theorem wrap_ok_pos {ty : MTy} {A : Mat K} (h1 : 0 < A.nr) (h2 : 0 < A.nc) : wrap ty A = .ok ⟨ty, A⟩ :=
  wrap_ok (fun _ => ⟨h1, h2⟩)

theorem ofNumpy_ok {ty : MTy} {A : Mat K} (h1 : 0 < A.nr) (h2 : 0 < A.nc) : ofNumpy ty A = .ok ⟨ty, A⟩ := by
  unfold ofNumpy
  rw [if_neg (by omega)]

theorem ofNumpy_eq_ok {ty : MTy} {A : Mat K} {t : TMat K} (h : ofNumpy ty A = .ok t) :
    t = ⟨ty, A⟩ ∧ 0 < A.nr ∧ 0 < A.nc := by
  unfold ofNumpy at h
  split at h
  · cases h
  · rename_i hb
    injection h with h
    exact ⟨h.symm, by omega, by omega⟩

theorem toType_eq_ok {ty : MTy} {t u : TMat K} (h : t.toType ty = .ok u) : u.ty = ty ∧ u.val = t.val := by
  cases ty with
  | dense =>
    simp only [toType, toDense] at h
    injection h with h
    subst h
    exact ⟨rfl, rfl⟩
  | sparse =>
    simp only [toType, toSparse] at h
    split at h
    · injection h with h
      subst h
      rename_i ht
      exact ⟨ht, rfl⟩
    · obtain ⟨rfl, _⟩ := ofNumpy_eq_ok h
      exact ⟨rfl, rfl⟩

theorem toType_self (t : TMat K) : t.toType t.ty = .ok t := by
  cases t with
  | mk ty val => cases ty <;> rfl

theorem toType_ok (ty : MTy) {t : TMat K} (h : t.NE) : t.toType ty = .ok ⟨ty, t.val⟩ := by
  cases ty with
  | dense => rfl
  | sparse =>
    simp only [toType, toSparse]
    split
    · rename_i ht
      cases t; simp_all
    · rename_i ht
      have := h ht
      exact ofNumpy_ok this.1 this.2

theorem normIdx_eq_ok {n : ℕ} {is : List ℤ} {ks : List ℕ} (h : normIdx n is = .ok ks) :
    List.Forall₂ (fun i k => pyIdx n i = some k) is ks := by
  induction is generalizing ks with
  | nil =>
    simp only [normIdx] at h
    injection h with h
    subst h
    exact .nil
  | cons i is ih =>
    simp only [normIdx] at h
    split at h
    · cases h
    · rename_i k hk
      split at h
      · cases h
      · rename_i ks' hks
        injection h with h
        subst h
        exact .cons hk (ih hks)

theorem normIdx_ok {n : ℕ} {is : List ℤ} {ks : List ℕ}
    (h : List.Forall₂ (fun i k => pyIdx n i = some k) is ks) : normIdx n is = .ok ks := by
  induction h with
  | nil => rfl
  | cons hk _ ih => simp only [normIdx, hk, ih]

theorem normIdx_nat {n : ℕ} {ks : List ℕ} (h : ∀ k ∈ ks, k < n) : normIdx n (ks.map Int.ofNat) = .ok ks := by
  apply normIdx_ok
  rw [List.forall₂_map_left_iff]
  refine List.forall₂_same.2 (fun k hk => ?_)
  have := h k hk
  simp only [pyIdx, Int.ofNat_eq_natCast]
  rw [if_pos (by omega)]
  simp

end Zero

theorem elemOp_same [Field K] {f : K → K → K} {s t : TMat K} (hty : s.ty = t.ty) (hr : s.nr = t.nr)
    (hc : s.nc = t.nc) :
    elemOp f s t = wrap s.ty (Mat.of s.nr s.nc (fun i j => f (s.val.get i j) (t.val.get i j))) := by
  unfold elemOp
  rw [if_pos hty]
  split
  · rename_i hd
    have hr' : s.val.nr = t.val.nr := hr
    have hc' : s.val.nc = t.val.nc := hc
    have : bcastOp f s.val t.val =
        some (Mat.of s.nr s.nc (fun i j => f (s.val.get i j) (t.val.get i j))) := by
      unfold bcastOp bcast
      rw [if_pos hr', if_pos hc']
      simp only []
      congr 1
      refine Mat.ext' rfl rfl (fun i j hi hj => ?_)
      have hi' : i < s.val.nr := hi
      have hj' : j < s.val.nc := hj
      rw [Mat.of_get_lt hi' hj', Mat.of_get_lt (by exact hi') (by exact hj')]
      have e1 : (if s.val.nr = 1 then 0 else i) = i := by split <;> omega
      have e2 : (if s.val.nc = 1 then 0 else j) = j := by split <;> omega
      rw [← hr', ← hc', e1, e2]
    rw [this, hd]
  · rename_i hd
    rw [if_pos ⟨hr, hc⟩, hd]

theorem add_same [Field K] {s t : TMat K} (hty : s.ty = t.ty) (hr : s.nr = t.nr) (hc : s.nc = t.nc) :
    s.add t = wrap s.ty (s.val.add t.val) := elemOp_same hty hr hc

theorem sub_same [Field K] {s t : TMat K} (hty : s.ty = t.ty) (hr : s.nr = t.nr) (hc : s.nc = t.nc) :
    s.sub t = wrap s.ty (s.val.sub t.val) := elemOp_same hty hr hc

theorem getD_map_range {α : Type} (f : ℕ → α) (d : α) {n i : ℕ} (hi : i < n) :
    ((List.range n).map f).getD i d = f i := by
  simp [List.getD_eq_getElem?_getD, hi]

/-- Scaling the rows by an array computed row by row. -/
theorem scaleRows_ofFun [Field K] (t : TMat K) (f : ℕ → K) :
    t.scaleRows ⟨[t.nr, 1], (List.range t.nr).map f⟩ = wrap t.ty (t.val.scaleRows f) := by
  have h : t.val.scaleRows (fun i => ((List.range t.nr).map f).getD i 0) = t.val.scaleRows f := by
    refine Mat.ext' rfl rfl (fun i j hi _ => ?_)
    have hi' : i < t.nr := hi
    simp only [Mat.scaleRows_get, getD_map_range f 0 hi']
  unfold scaleRows
  cases hty : t.ty with
  | dense => simp only [true_or, if_true]; rw [h]
  | sparse => simp only [List.length_map, List.length_range, if_true]; rw [h]

/-- Scaling the columns by an array computed column by column. -/
theorem scaleCols_ofFun [Field K] (t : TMat K) (f : ℕ → K) :
    t.scaleCols ⟨[1, t.nc], (List.range t.nc).map f⟩ = wrap t.ty (t.val.scaleCols f) := by
  have h : t.val.scaleCols (fun i => ((List.range t.nc).map f).getD i 0) = t.val.scaleCols f := by
    refine Mat.ext' rfl rfl (fun i j _ hj => ?_)
    have hj' : j < t.nc := hj
    simp only [Mat.scaleCols_get, getD_map_range f 0 hj']
  unfold scaleCols
  cases hty : t.ty with
  | dense => simp only [true_or, if_true]; rw [h]
  | sparse => simp only [List.length_map, List.length_range, if_true]; rw [h]

end TMat

theorem nonzeroInvert_ofFun {K : Type} [Field K] [DecidableEq K] (sh : List ℕ) (n : ℕ) (f : ℕ → K) :
    nonzeroInvert ⟨sh, (List.range n).map f⟩ = ⟨sh, (List.range n).map (fun i => (f i)⁻¹)⟩ := by
  unfold nonzeroInvert
  simp only [List.map_map]
  congr 1
  refine List.map_congr_left (fun i _ => ?_)
  simp only [Function.comp]
  by_cases h : f i = 0
  · rw [if_neg (not_not.2 h), h, inv_zero]
  · rw [if_pos h, one_div]

end Dissect
