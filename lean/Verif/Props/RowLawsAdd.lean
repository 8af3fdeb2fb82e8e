import Verif.Props.RowLaws

/-! # C155, C156 for rows added later -/

namespace Dissect
open Finset
noncomputable section
variable {κ : Type} [DecidableEq κ]

/-- The matrix after a successful `add_rows`. -/
theorem addRows_matrix {p p' : Space κ} {m : TMat ℝ} {ws : List κ} (h : Periph.addRows p m ws = (p', .ok ())) :
    ∃ m', projAll p.ops m = .ok m' ∧ p.mat.nc = m'.nc ∧ p'.mat.val = p.mat.val.vstack m'.val := by
  unfold Periph.addRows at h
  rcases hd : addItemsToDict p.row2id ws with ⟨d, out⟩
  rw [hd] at h
  cases out with
  | error e => simp at h
  | ok u =>
    simp only at h
    split at h
    · simp at h
    · rcases hpo : Periph.projectOps p.id2col p.col2id m p.ops with ⟨⟨c, cd⟩, out⟩
      rw [hpo] at h
      simp only at h
      cases out with
      | error e => simp at h
      | ok m' =>
        simp only at h
        have hsp := (projectOps_spec p.ops p.id2col p.col2id m).1 m' (by rw [hpo])
        cases hv : p.mat.vstack m' with
        | error e => rw [hv] at h; simp at h
        | ok mm =>
          rw [hv] at h
          simp only [Prod.mk.injEq] at h
          obtain ⟨rfl, _⟩ := h
          refine ⟨m', hsp.1, ?_⟩
          simp only [TMat.vstack] at hv
          split at hv
          · split at hv
            · next hnc => exact ⟨hnc, congrArg TMat.val (TMat.wrap_eq_ok hv).1⟩
            · cases hv
          · cases hv

/-- **C155** a word without counts that is added to a peripheral space later has the zero vector as well; the words already
there keep their vectors. -/
theorem C155_added (p p' : Space κ) (m : TMat ℝ) (ws : List κ) (hm : 0 < m.nr)
    (h : Periph.addRows p m ws = (p', .ok ())) :
    (∀ i < p.mat.nr, ∀ j, p'.mat.val.get i j = p.mat.val.get i j) ∧
    ∀ i, (∀ j < m.nc, m.val.get i j = 0) → ∀ j, p'.mat.val.get (p.mat.nr + i) j = 0 := by
  obtain ⟨m', h1, hnc, h2⟩ := addRows_matrix h
  rw [h2]
  refine ⟨fun i hi j => ?_, fun i h0 j => ?_⟩
  · rw [Mat.vstack_get hnc, if_pos hi]
  · rw [Mat.vstack_get hnc, if_neg (by simp [TMat.nr])]
    rw [show p.mat.nr + i - p.mat.val.nr = i by simp [TMat.nr], ((models_projAll p.ops).eq_ok hm h1).2]
    exact RowMap.out_zero (opsMap_zeroSafe p.ops) m h0 j

/-- **C156** it does not matter when a word is given to a peripheral space: added later, with any other words, it has the
vector it has in a peripheral space built from it at once on the same core. -/
theorem C156_added (core p p' q : Space κ) (m m' : TMat ℝ) (ws ws' : List κ) (d : Option (Dict κ ℤ))
    (hops : p.ops = core.ops) (hq : Periph.new core m' ws' d = .ok q) (h : Periph.addRows p m ws = (p', .ok ()))
    (i i' : ℕ) (hi : i < m.nr) (hi' : i' < m'.nr) (hnc : m.nc = m'.nc)
    (he : ∀ j < m.nc, m.val.get i j = m'.val.get i' j) :
    p'.mat.nc = q.mat.nc ∧ ∀ j, p'.mat.val.get (p.mat.nr + i) j = q.mat.val.get i' j := by
  obtain ⟨mm, h1, hw, h2⟩ := addRows_matrix h
  obtain ⟨e1, -⟩ := periphNew_eq_ok hq
  rw [hops] at h1
  have o1 := ((models_projAll core.ops).eq_ok (by omega) h1).2
  have o2 := ((models_projAll core.ops).eq_ok (by omega) e1).2
  constructor
  · have : p'.mat.nc = mm.nc := by
      show p'.mat.val.nc = _
      rw [h2]; exact hw
    rw [this, o1, o2]
    show (opsMap core.ops).width m.nc = (opsMap core.ops).width m'.nc
    rw [hnc]
  · intro j
    rw [h2, Mat.vstack_get hw, if_neg (by simp [TMat.nr]), show p.mat.nr + i - p.mat.val.nr = i by simp [TMat.nr], o1, o2,
      RowMap.out_row _ _ hi, RowMap.out_row _ _ hi', row_ext hnc he, hnc]

/-- **C156** the operations of a peripheral space are those of its core space, before and after adding rows, so that C156_added
applies to any number of `add_rows` calls. -/
theorem C156_added_again (core p p' : Space κ) (m m2 : TMat ℝ) (ws ws2 : List κ) (d : Option (Dict κ ℤ))
    (hp : Periph.new core m ws d = .ok p) (h : Periph.addRows p m2 ws2 = (p', .ok ())) :
    p.ops = core.ops ∧ p'.ops = core.ops := by
  have h0 := (periphNew_eq_ok hp).2.2.2.1
  refine ⟨h0, ?_⟩
  have : (Periph.addRows p m2 ws2).1.ops = p.ops := by
    unfold Periph.addRows
    rcases addItemsToDict p.row2id ws2 with ⟨d, out⟩
    cases out with
    | error e => rfl
    | ok u =>
      simp only
      split
      · rfl
      · rcases Periph.projectOps p.id2col p.col2id m2 p.ops with ⟨⟨c, cd⟩, out⟩
        cases out with
        | error e => rfl
        | ok m' =>
          simp only
          cases p.mat.vstack m' <;> rfl
  rw [h] at this
  exact this.trans h0

end
end Dissect
