import Verif.Examples.PeriphClasses
import Verif.Props.OwnCounts

/-! # Concrete instances: C168 -/

namespace Dissect
open Finset
noncomputable section
namespace Examples

/-- The two transformations of the example. -/
def wordTs : List Trans := [.scaling .plog, .scaling (.rowNorm .sum)]

theorem wordTs_wordWise : ∀ x ∈ wordTs, x.WordWise := by
  intro x hx
  simp only [wordTs, List.mem_cons, List.not_mem_nil, or_false] at hx
  rcases hx with rfl | rfl <;> trivial

/-- Every non-negative space with rows and columns can be transformed so. -/
theorem wordTs_ok (env : Env) (s : Space String) (hwf : s.WF) (hr : 0 < s.mat.nr) (hc : 0 < s.mat.nc)
    (hn : NonNegative s.mat.val) : ∃ t, s.applyAll env wordTs = .ok t ∧ t.mat.nc = s.mat.nc := by
  obtain ⟨s1, h1⟩ := (C05_apply_total env s hwf hr hc).1 .plog hn
  obtain ⟨_, _, q1, q2, q⟩ := C05_scaling_keeps_columns env s s1 _ hr h1
  obtain ⟨w1, _⟩ := C05_apply env s s1 _ h1
  have hn1 : NonNegative s1.mat.val := by
    obtain ⟨r, e1, _, _, _, e5⟩ := C17_plog s.mat hr hc
    have : s1.mat = r := ok_inj (q.symm.trans e1)
    intro i j hi hj
    rw [this, e5 i j (by rw [← q1]; exact hi) (by rw [← q2]; exact hj)]
    beta_reduce
    split
    · exact Real.log_nonneg (by assumption)
    · exact le_refl _
  obtain ⟨s2, h2⟩ := (C05_apply_total env s1 w1 (by rw [q1]; exact hr) (by rw [q2]; exact hc)).1 (.rowNorm .sum) hn1
  obtain ⟨_, _, _, q3, _⟩ := C05_scaling_keeps_columns env s1 s2 _ (by rw [q1]; exact hr) h2
  exact ⟨s2, by simp [wordTs, Space.applyAll, h1, h2], by rw [q3, q2]⟩

/-- Only `cat` and `dog`, from the counts of five words. -/
def pairMat : TMat ℝ := ⟨.sparse, (herd .dense).mat.val.selRows [3, 0]⟩

theorem pair_row (a r j : ℕ) (h : [3, 0][a]? = some r) : pairMat.val.get a j = (herd .dense).mat.val.get r j :=
  Mat.selRows_get_some h j

/-- C168: `dog` and `cat` with and without the other three words; and as peripheral words of the larger space. -/
example (env : Env) : ∃ s t t' p : Space String, s.mat = pairMat ∧ (herd .dense).applyAll env wordTs = .ok t ∧
    s.applyAll env wordTs = .ok t' ∧ (∀ j, t.mat.val.get 3 j = t'.mat.val.get 0 j) ∧
    t.getSim "dog" "cat" .lin none = t'.getSim "dog" "cat" .lin none ∧
    Periph.new t pairMat ["x", "y"] none = .ok p ∧ p.mat = t'.mat := by
  obtain ⟨s, hs⟩ := (C01_accepts_iff pairMat ["cat", "dog"] ([] : List String) none none [] none).2
    ⟨by simp, by simp, by simp, by simp, rfl, by simp, by simp⟩
  obtain ⟨h0, h1, h2, _, h4, h5, _⟩ := C01_result _ _ _ _ _ _ _ s hs
  have hc : s.mat.nc = 2 := by rw [h1]; exact herd_nc .dense
  have hr : s.mat.nr = 2 := by rw [h1]; rfl
  have hn : NonNegative s.mat.val := by
    intro i j hi hj
    have hi' : i < 2 := by rw [h1] at hi; exact hi
    have hj' : j < (herd .dense).mat.val.nc := by rw [h1] at hj; exact hj
    rw [h1]
    have hrow : ∃ r, [3, 0][i]? = some r ∧ r < 5 := by
      rcases (show i = 0 ∨ i = 1 by omega) with rfl | rfl
      · exact ⟨3, rfl, by omega⟩
      · exact ⟨0, rfl, by omega⟩
    obtain ⟨r, e1, e2⟩ := hrow
    rw [pair_row i r j e1]
    exact herd_nonneg .dense r j (by rw [show (herd .dense).mat.val.nr = 5 from herd_nr .dense]; exact e2) hj'
  obtain ⟨t, ht, htc⟩ := wordTs_ok env (herd .dense) (herd_wf _) (by rw [herd_nr]; decide) (by rw [herd_nc]; decide)
    (herd_nonneg _)
  obtain ⟨t', ht', _⟩ := wordTs_ok env s h0 (by omega) (by omega) hn
  obtain ⟨p, hp, _⟩ := C24_core_rows_reproduced env _ t wordTs (herd_wf .dense) (herd_ops .dense) (by rw [herd_nr]; decide)
    (by rw [herd_nc]; decide)
    (by
      intro x hx
      simp only [wordTs, List.mem_cons, List.not_mem_nil, or_false] at hx
      rcases hx with rfl | rfl <;> trivial)
    (by
      intro pre k post s' e _
      have : Trans.dimred (.svd k) ∈ wordTs := by rw [e]; simp
      simp [wordTs] at this)
    ht .sparse [3, 0] (by simp) (by intro k hk; rw [herd_nr]; simp at hk; omega) ["x", "y"] (by decide) rfl
  have g : ∀ a r, [3, 0][a]? = some r → ∀ j < (herd .dense).mat.nc, (herd .dense).mat.val.get r j = s.mat.val.get a j := by
    intro a r e j _
    rw [h1, pair_row a r j e]
  have hcc : (herd .dense).mat.nc = s.mat.nc := by rw [hc, herd_nc]
  refine ⟨s, t, t', p, h1, ht, ht', ?_, ?_, hp, ?_⟩
  · exact (C168_own_counts env env _ s t t' wordTs wordTs_wordWise ht ht' 3 0 (by rw [herd_nr]; decide) (by omega) hcc
      (g 0 3 rfl)).2
  · exact C168_similarities env env _ s t t' wordTs wordTs_wordWise (herd_wf _) h0 ht ht' hcc (by rw [htc, herd_nc]; decide)
      "dog" "cat" 0 3 1 0 (by unfold Space.HasWord; rw [herd_words]; rfl) (by unfold Space.HasWord; rw [herd_words]; rfl)
      (by unfold Space.HasWord; rw [h2]; rfl) (by unfold Space.HasWord; rw [h2]; rfl) (g 1 0 rfl) (g 0 3 rfl) .lin
  · have hp' : Periph.new t s.mat ["x", "y"] none = .ok p := by rw [h1]; exact hp
    exact C168_core_or_peripheral env env _ t p s t' wordTs wordTs_wordWise (herd_ops _) ht _ none hp' ht'

end Examples
end
end Dissect
