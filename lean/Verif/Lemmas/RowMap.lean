import Verif.Model.Space
import Verif.Lemmas.Matrix
import Verif.Lemmas.Py

/-!
# Row-wise behaviour of projections

Every projection treats the rows of its argument independently. `RowMap` describes such a function: the class and
width of the result, the new row as a function of the old one, and when it raises.
-/

namespace Dissect
open Finset

/-- Description of a row-wise function on matrices. -/
structure RowMap where
  ty : MTy → MTy
  width : ℕ → ℕ
  row : ℕ → (ℕ → ℝ) → ℕ → ℝ
  ok : MTy → ℕ → Prop
  okRow : ℕ → (ℕ → ℝ) → Prop

namespace RowMap

/-- The result described. -/
noncomputable def out (R : RowMap) (m : TMat ℝ) : TMat ℝ :=
  ⟨R.ty m.ty, Mat.of m.nr (R.width m.nc) (fun i => R.row m.nc (m.val.get i))⟩

/-- When the described function returns. -/
def Good (R : RowMap) (m : TMat ℝ) : Prop := R.ok m.ty m.nc ∧ ∀ i, i < m.nr → R.okRow m.nc (m.val.get i)

/-- `g` is the function described by `R` (on matrices with at least one row). -/
def Models (R : RowMap) (g : TMat ℝ → Py (TMat ℝ)) : Prop :=
  ∀ m, 0 < m.nr → (R.Good m → g m = .ok (R.out m)) ∧ (¬ R.Good m → ∃ e, g m = .error e)

theorem Models.eq_ok {R : RowMap} {g : TMat ℝ → Py (TMat ℝ)} (h : R.Models g) {m r : TMat ℝ} (hn : 0 < m.nr)
    (hr : g m = .ok r) : R.Good m ∧ r = R.out m := by
  by_cases hg : R.Good m
  · rw [(h m hn).1 hg] at hr
    exact ⟨hg, (ok_inj hr).symm⟩
  · obtain ⟨e, he⟩ := (h m hn).2 hg
    rw [he] at hr; cases hr

/-- Composition. -/
def comp (R S : RowMap) : RowMap where
  ty t := S.ty (R.ty t)
  width n := S.width (R.width n)
  row n x := S.row (R.width n) (fun j => if j < R.width n then R.row n x j else 0)
  ok t n := R.ok t n ∧ S.ok (R.ty t) (R.width n)
  okRow n x := R.okRow n x ∧ S.okRow (R.width n) (fun j => if j < R.width n then R.row n x j else 0)

theorem out_row (R : RowMap) (m : TMat ℝ) {i : ℕ} (hi : i < m.nr) :
    (R.out m).val.get i = fun j => if j < R.width m.nc then R.row m.nc (m.val.get i) j else 0 := by
  funext j
  simp only [out, Mat.of_get, hi, true_and]

theorem Models.comp {R S : RowMap} {g h : TMat ℝ → Py (TMat ℝ)} (hR : R.Models g) (hS : S.Models h) :
    (R.comp S).Models (fun m => g m >>= h) := by
  intro m hn
  constructor
  · rintro ⟨⟨h1, h2⟩, h3⟩
    have hg : R.Good m := ⟨h1, fun i hi => (h3 i hi).1⟩
    have hs : S.Good (R.out m) := ⟨h2, fun i hi => by
      rw [out_row R m hi]; exact (h3 i hi).2⟩
    simp only [(hR m hn).1 hg, ok_bind]
    rw [(hS (R.out m) hn).1 hs]
    refine congrArg _ (TMat.ext' rfl (Mat.ext' rfl rfl (fun i j hi hj => ?_)))
    have hi' : i < m.nr := hi
    have hrow : (fun j => if j < R.width m.nc then R.row m.nc (m.val.get i) j else 0) = (R.out m).val.get i :=
      (out_row R m hi').symm
    have e1 : (S.out (R.out m)).val.get i j = if j < S.width (R.width m.nc) then
        S.row (R.width m.nc) ((R.out m).val.get i) j else 0 := congrFun (out_row S (R.out m) hi') j
    have e2 : ((R.comp S).out m).val.get i j = if j < S.width (R.width m.nc) then
        S.row (R.width m.nc) (fun j => if j < R.width m.nc then R.row m.nc (m.val.get i) j else 0) j else 0 :=
      congrFun (out_row (R.comp S) m hi') j
    rw [e1, e2, hrow]
  · intro hng
    by_cases hg : R.Good m
    · simp only [(hR m hn).1 hg, ok_bind]
      apply (hS (R.out m) hn).2
      intro hs
      apply hng
      refine ⟨⟨hg.1, hs.1⟩, fun i hi => ⟨hg.2 i hi, ?_⟩⟩
      have := hs.2 i hi
      rw [out_row R m hi] at this
      exact this
    · obtain ⟨e, he⟩ := (hR m hn).2 hg
      exact ⟨e, by simp only [he, error_bind]⟩

/-- The identity. -/
def id : RowMap := ⟨fun t => t, fun n => n, fun _ x => x, fun _ _ => True, fun _ _ => True⟩

theorem models_id : RowMap.id.Models (fun m => .ok m) := by
  intro m _
  refine ⟨fun _ => congrArg _ (TMat.ext' rfl (Mat.ext' rfl rfl (fun i j hi hj => ?_))), fun h => ?_⟩
  · simp [out, id, Mat.of_get, TMat.nr, TMat.nc, hi, hj]
  · exact absurd ⟨trivial, fun _ _ => trivial⟩ h

/-- A function that always raises. -/
def fail : RowMap := ⟨fun t => t, fun n => n, fun _ x => x, fun _ _ => False, fun _ _ => True⟩

theorem models_fail {g : TMat ℝ → Py (TMat ℝ)} (h : ∀ m, ∃ e, g m = .error e) : fail.Models g :=
  fun m _ => ⟨fun hg => hg.1.elim, fun _ => h m⟩

/-- Selecting rows before or after is the same. -/
theorem out_selRows (R : RowMap) (m : TMat ℝ) (ks : List ℕ) (hk : ∀ k ∈ ks, k < m.nr) :
    R.out ⟨m.ty, m.val.selRows ks⟩ = ⟨(R.out m).ty, (R.out m).val.selRows ks⟩ := by
  refine TMat.ext' rfl (Mat.ext' rfl rfl (fun i j hi hj => ?_))
  have hi' : i < ks.length := hi
  have hget : ks[i]? = some ks[i] := List.getElem?_eq_getElem hi'
  have hrow : (m.val.selRows ks).get i = m.val.get ks[i] := by
    funext c; exact Mat.selRows_get_some hget c
  simp only [Mat.selRows_get_some hget]
  have hlt := hk ks[i] (List.getElem_mem hi')
  simp only [out, Mat.of_get, TMat.nr, TMat.nc, Mat.selRows_nr, Mat.selRows_nc, hi', true_and, hrow]
  simp only [TMat.nr] at hlt
  simp only [hlt, true_and]

theorem good_selRows (R : RowMap) (m : TMat ℝ) (ks : List ℕ) (hk : ∀ k ∈ ks, k < m.nr) (h : R.Good m) :
    R.Good ⟨m.ty, m.val.selRows ks⟩ := by
  refine ⟨h.1, fun i hi => ?_⟩
  have hi' : i < ks.length := hi
  have hget : ks[i]? = some ks[i] := List.getElem?_eq_getElem hi'
  have hrow : (m.val.selRows ks).get i = m.val.get ks[i] := by
    funext c; exact Mat.selRows_get_some hget c
  show R.okRow m.val.nc ((m.val.selRows ks).get i)
  rw [hrow]
  exact h.2 _ (hk _ (List.getElem_mem hi'))

theorem vstack_row_left (a b : Mat ℝ) (h : a.nc = b.nc) {i : ℕ} (hi : i < a.nr) : (a.vstack b).get i = a.get i := by
  funext c; rw [Mat.vstack_get h, if_pos hi]

theorem vstack_row_right (a b : Mat ℝ) (h : a.nc = b.nc) {i : ℕ} (hi : ¬ i < a.nr) :
    (a.vstack b).get i = b.get (i - a.nr) := by
  funext c; rw [Mat.vstack_get h, if_neg hi]

/-- Stacking before or after is the same. -/
theorem out_vstack (R : RowMap) (a b : TMat ℝ) (hc : a.nc = b.nc) :
    (R.out ⟨a.ty, a.val.vstack b.val⟩) = ⟨(R.out a).ty, (R.out a).val.vstack (R.out b).val⟩ := by
  have hc' : a.val.nc = b.val.nc := hc
  refine TMat.ext' rfl (Mat.ext' rfl rfl (fun i j hi hj => ?_))
  have hi' : i < a.val.nr + b.val.nr := hi
  rw [Mat.vstack_get (by simp [out, hc'])]
  by_cases hlt : i < a.val.nr
  · rw [if_pos (show i < (R.out a).val.nr from hlt)]
    simp only [out, Mat.of_get, TMat.nr, TMat.nc, Mat.vstack_nr, Mat.vstack_nc, vstack_row_left _ _ hc' hlt, hlt, hi',
      true_and]
  · rw [if_neg (show ¬ i < (R.out a).val.nr from hlt)]
    have h2 : i - a.val.nr < b.val.nr := by omega
    have h3 : (R.out a).val.nr = a.val.nr := rfl
    rw [h3]
    simp only [out, Mat.of_get, TMat.nr, TMat.nc, Mat.vstack_nr, Mat.vstack_nc, vstack_row_right _ _ hc' hlt, h2, hi',
      true_and, hc']

theorem good_vstack (R : RowMap) (a b : TMat ℝ) (hc : a.nc = b.nc) (hty : a.ty = b.ty)
    (hpos : 0 < a.nr) :
    R.Good ⟨a.ty, a.val.vstack b.val⟩ ↔ R.Good a ∧ (∀ i, i < b.nr → R.okRow b.nc (b.val.get i)) := by
  have hc' : a.val.nc = b.val.nc := hc
  constructor
  · rintro ⟨h1, h2⟩
    refine ⟨⟨h1, fun i hi => ?_⟩, fun i hi => ?_⟩
    · have := h2 i (show i < a.val.nr + b.val.nr by simp only [TMat.nr] at hi; omega)
      simp only [TMat.nc, Mat.vstack_nc] at this
      rw [vstack_row_left _ _ hc' hi] at this
      exact this
    · have := h2 (a.val.nr + i) (show a.val.nr + i < a.val.nr + b.val.nr by simp only [TMat.nr] at hi; omega)
      simp only [TMat.nc, Mat.vstack_nc] at this
      rw [vstack_row_right _ _ hc' (by omega), hc', Nat.add_sub_cancel_left] at this
      exact this
  · rintro ⟨⟨h1, h2⟩, h3⟩
    refine ⟨h1, fun i hi => ?_⟩
    have hi' : i < a.val.nr + b.val.nr := hi
    simp only [TMat.nc, Mat.vstack_nc]
    by_cases hlt : i < a.val.nr
    · rw [vstack_row_left _ _ hc' hlt]; exact h2 i hlt
    · rw [vstack_row_right _ _ hc' hlt, hc']
      exact h3 _ (show i - a.val.nr < b.val.nr by omega)

end RowMap
end Dissect
