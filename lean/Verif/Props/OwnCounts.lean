import Verif.Props.RowLaws
import Verif.Props.World

/-! # C168: weightings that look at one word at a time -/

namespace Dissect
open Finset
noncomputable section
variable {κ : Type} [DecidableEq κ]

/-- The transformations that look at one word at a time: `PlogWeighting` and `RowNormalization`. -/
def Trans.WordWise : Trans → Prop
  | .scaling .plog => True
  | .scaling (.rowNorm _) => True
  | _ => False

/-- Applying such a transformation to a space is projecting it: nothing about the space is remembered. -/
theorem wordWise_apply {env : Env} {s s' : Space κ} {t : Trans} (ht : t.WordWise) (h : s.apply env t = .ok s') :
    s'.ops = s.ops ++ [t.createOp] ∧ (t.createOp : Op κ).project s.mat = .ok s'.mat := by
  obtain ⟨op, m, hop, op', h1, h2, _, _, _, _, h7, _⟩ := apply_eq_ok h
  have key : ∀ st : ScalingT, t = .scaling st → st.usesStats = false →
      s'.ops = s.ops ++ [t.createOp] ∧ (t.createOp : Op κ).project s.mat = .ok s'.mat := by
    rintro st rfl hst
    obtain ⟨rfl, ha⟩ := opApply_scaling hop
    simp only [hst] at h7
    subst h7
    refine ⟨h1, ?_⟩
    show (if st.usesStats then _ else st.apply s.mat none) = _
    rw [hst, h2]
    exact ha
  cases t with
  | scaling st =>
    cases st with
    | plog => exact key _ rfl rfl
    | rowNorm c => exact key _ rfl rfl
    | _ => exact ht.elim
  | _ => exact ht.elim

theorem wordWise_applyAll {env : Env} {ts : List Trans} (ht : ∀ t ∈ ts, t.WordWise) : ∀ {s s' : Space κ},
    s.applyAll env ts = .ok s' →
    s'.ops = s.ops ++ ts.map Trans.createOp ∧ projAll (ts.map (Trans.createOp (κ := κ))) s.mat = .ok s'.mat := by
  induction ts with
  | nil =>
    intro s s' h
    obtain rfl := ok_inj h
    exact ⟨by simp, rfl⟩
  | cons t ts ih =>
    intro s s' h
    simp only [Space.applyAll, bind_eq_ok] at h
    obtain ⟨s1, h1, h2⟩ := h
    obtain ⟨e1, e2⟩ := wordWise_apply (ht t (by simp)) h1
    obtain ⟨f1, f2⟩ := ih (fun x hx => ht x (by simp [hx])) h2
    exact ⟨by rw [f1, e1]; simp, by simp only [List.map_cons, projAll, e2, ok_bind, f2]⟩

/-- **C168** After any sequence of PLOG weightings and row normalisations the vector of a word depends on its own counts
only: in two spaces with whatever other words, stored densely or sparsely, words with the same counts get the same vector. -/
theorem C168_own_counts (env env' : Env) (s s' t t' : Space κ) (ts : List Trans) (hts : ∀ x ∈ ts, x.WordWise)
    (ht : s.applyAll env ts = .ok t) (ht' : s'.applyAll env' ts = .ok t') (i i' : ℕ) (hi : i < s.mat.nr)
    (hi' : i' < s'.mat.nr) (hc : s.mat.nc = s'.mat.nc) (h : ∀ j < s.mat.nc, s.mat.val.get i j = s'.mat.val.get i' j) :
    t.mat.nc = t'.mat.nc ∧ ∀ j, t.mat.val.get i j = t'.mat.val.get i' j := by
  have o1 := ((models_projAll _).eq_ok (by omega) (wordWise_applyAll hts ht).2).2
  have o2 := ((models_projAll _).eq_ok (by omega) (wordWise_applyAll hts ht').2).2
  rw [o1, o2]
  refine ⟨?_, fun j => ?_⟩
  · show (opsMap _).width s.mat.nc = (opsMap _).width s'.mat.nc
    rw [hc]
  · rw [RowMap.out_row _ _ hi, RowMap.out_row _ _ hi', row_ext hc h, hc]

/-- **C168** so the similarity of two words, by any of the four measures, does not change when other words are added to the
space or removed from it before the transformations. -/
theorem C168_similarities (env env' : Env) (s s' t t' : Space κ) (ts : List Trans) (hts : ∀ x ∈ ts, x.WordWise)
    (hwf : s.WF) (hwf' : s'.WF) (ht : s.applyAll env ts = .ok t) (ht' : s'.applyAll env' ts = .ok t')
    (hc : s.mat.nc = s'.mat.nc) (hc0 : 0 < t.mat.nc) (w1 w2 : κ) (i1 i2 j1 j2 : ℕ) (h1 : s.HasWord i1 w1)
    (h2 : s.HasWord i2 w2) (h1' : s'.HasWord j1 w1) (h2' : s'.HasWord j2 w2)
    (e1 : ∀ j < s.mat.nc, s.mat.val.get i1 j = s'.mat.val.get j1 j)
    (e2 : ∀ j < s.mat.nc, s.mat.val.get i2 j = s'.mat.val.get j2 j) (sim : Sim) :
    t.getSim w1 w2 sim none = t'.getSim w1 w2 sim none := by
  have lt : ∀ {s : Space κ} {i w}, s.WF → s.HasWord i w → i < s.mat.nr := by
    intro s i w hs hi
    rw [hs.nrows]
    exact (List.getElem?_eq_some_iff.1 hi).1
  obtain ⟨c1, v1⟩ := C168_own_counts env env' s s' t t' ts hts ht ht' i1 j1 (lt hwf h1) (lt hwf' h1') hc e1
  obtain ⟨_, v2⟩ := C168_own_counts env env' s s' t t' ts hts ht ht' i2 j2 (lt hwf h2) (lt hwf' h2') hc e2
  obtain ⟨r, _, w⟩ := applyAll_rows ht
  obtain ⟨r', _, w'⟩ := applyAll_rows ht'
  have g1 : t.HasWord i1 w1 := by unfold Space.HasWord; rw [r]; exact h1
  have g2 : t.HasWord i2 w2 := by unfold Space.HasWord; rw [r]; exact h2
  have g1' : t'.HasWord j1 w1 := by unfold Space.HasWord; rw [r']; exact h1'
  have g2' : t'.HasWord j2 w2 := by unfold Space.HasWord; rw [r']; exact h2'
  rw [Space.getSim_words (w hwf) hc0 g1 g2, Space.getSim_words (w' hwf') (by rw [← c1]; exact hc0) g1' g2', ← c1,
    show t.mat.val.get i1 = t'.mat.val.get j1 from funext v1, show t.mat.val.get i2 = t'.mat.val.get j2 from funext v2]

/-- **C168** and new words may be treated as peripheral words of any core space with these transformations or as a core space
of their own: the matrix, with its class, is the same. -/
theorem C168_core_or_peripheral (env env' : Env) (raw core p own own' : Space κ) (ts : List Trans)
    (hts : ∀ x ∈ ts, x.WordWise) (hops : raw.ops = []) (hcore : raw.applyAll env ts = .ok core) (ws : List κ)
    (d : Option (Dict κ ℤ)) (hp : Periph.new core own.mat ws d = .ok p) (hown : own.applyAll env' ts = .ok own') :
    p.mat = own'.mat := by
  obtain ⟨e1, _⟩ := wordWise_applyAll hts hcore
  obtain ⟨_, f2⟩ := wordWise_applyAll hts hown
  obtain ⟨h1, -⟩ := periphNew_eq_ok hp
  rw [e1, hops, List.nil_append, f2] at h1
  exact (ok_inj h1).symm

end
end Dissect
