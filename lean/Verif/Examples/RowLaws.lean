import Verif.Props.RowLaws

/-! # Concrete instances: C155 – C157 -/

namespace Dissect
open Finset
noncomputable section
namespace Examples

/-- Counts of five words: `dogs` occurs twice as often as `dog` in every context, `hound` as often, `unicorn` never. -/
def herdMat (ty : MTy) : TMat ℝ := ⟨ty, Mat.of 5 2 (fun i j => if i = 0 ∨ i = 4 then (if j = 0 then 1 else 3) else
  if i = 1 then (if j = 0 then 2 else 6) else if i = 2 then 0 else (if j = 0 then 4 else 1))⟩

theorem herd_ok (ty : MTy) : ∃ s : Space String, s.WF ∧ s.mat = herdMat ty ∧ s.id2row = ["dog", "dogs", "unicorn", "cat", "hound"] ∧
    s.ops = [] ∧ s.elemShape = [2] := by
  obtain ⟨raw, hs⟩ := (C01_accepts_iff (herdMat ty) ["dog", "dogs", "unicorn", "cat", "hound"] ([] : List String) none none [] none).2
    ⟨by simp, by simp, by simp, by simp, rfl, by simp, by simp⟩
  obtain ⟨h0, h1, h2, _, h4, h5, _⟩ := C01_result _ _ _ _ _ _ _ raw hs
  exact ⟨raw, h0, h1, h2, h4, by rw [h5]; rfl⟩

/-- The raw space. -/
def herd (ty : MTy) : Space String := (herd_ok ty).choose
theorem herd_wf (ty : MTy) : (herd ty).WF := (herd_ok ty).choose_spec.1
theorem herd_mat (ty : MTy) : (herd ty).mat = herdMat ty := (herd_ok ty).choose_spec.2.1
theorem herd_words (ty : MTy) : (herd ty).id2row = ["dog", "dogs", "unicorn", "cat", "hound"] := (herd_ok ty).choose_spec.2.2.1
theorem herd_ops (ty : MTy) : (herd ty).ops = [] := (herd_ok ty).choose_spec.2.2.2.1
theorem herd_shape (ty : MTy) : (herd ty).elemShape = [2] := (herd_ok ty).choose_spec.2.2.2.2
theorem herd_nr (ty : MTy) : (herd ty).mat.nr = 5 := by rw [herd_mat]; rfl
theorem herd_nc (ty : MTy) : (herd ty).mat.nc = 2 := by rw [herd_mat]; rfl

theorem herd_nonneg (ty : MTy) : NonNegative (herd ty).mat.val := by
  rw [herd_mat]
  intro i j hi hj
  have hi' : i < 5 := hi
  have hj' : j < 2 := hj
  show 0 ≤ (Mat.of 5 2 _).get i j
  rw [Mat.of_get_lt hi' hj']
  (repeat' split) <;> norm_num

theorem herd_get (ty : MTy) (i j : ℕ) (hi : i < 5) (hj : j < 2) : (herd ty).mat.val.get i j =
    if i = 0 ∨ i = 4 then (if j = 0 then 1 else 3) else
      if i = 1 then (if j = 0 then 2 else 6) else if i = 2 then 0 else (if j = 0 then 4 else 1) := by
  rw [herd_mat]
  exact Mat.of_get_lt hi hj

/-- A scaling followed by feature selection always works on it. -/
theorem herd_core (env : Env) (ty : MTy) (st : ScalingT) :
    ∃ core, (herd ty).applyAll env [.scaling st, .featsel 1 .sum] = .ok core := by
  obtain ⟨s1, h1⟩ := (C05_apply_total env (herd ty) (herd_wf ty) (by rw [herd_nr]; decide) (by rw [herd_nc]; decide)).1 st
    (herd_nonneg ty)
  obtain ⟨_, _, hnr, hnc, _⟩ := C05_scaling_keeps_columns env _ _ _ (by rw [herd_nr]; decide) h1
  obtain ⟨wf1, _, _, hsh1, _⟩ := C05_apply env _ _ _ h1
  obtain ⟨s2, h2⟩ := (C05_apply_total env s1 wf1 (by rw [hnr, herd_nr]; decide) (by rw [hnc, herd_nc]; decide)).2 1 .sum
    (by decide) (by rw [hsh1]; simp)
  exact ⟨s2, by simp [Space.applyAll, h1, h2]⟩

theorem herd_exact (st : ScalingT) : ∀ t ∈ [Trans.scaling st, .featsel 1 .sum], t.Exact := by simp [Trans.Exact]

theorem herd_noSvd (env : Env) (ty : MTy) (st : ScalingT) : ∀ pre k post s,
    [Trans.scaling st, .featsel 1 .sum] = pre ++ .dimred (.svd k) :: post → (herd ty).applyAll env pre = .ok s →
      SvdCallOk env s.mat k := by
  intro pre k post s he _
  have : Trans.dimred (.svd k) ∈ [Trans.scaling st, .featsel 1 .sum] := by rw [he]; simp
  simp at this

/-- C155: the zero row and one zero among the entries, under PPMI. -/
example (env : Env) : ∃ s', (herd .sparse).apply env (.scaling .ppmi) = .ok s' ∧ s'.mat.val.get 2 0 = 0 ∧
    nonZeros s'.mat.val ≤ nonZeros (herd .sparse).mat.val := by
  obtain ⟨s', h⟩ := (C05_apply_total env (herd .sparse) (herd_wf _) (by rw [herd_nr]; decide) (by rw [herd_nc]; decide)).1
    .ppmi (herd_nonneg _)
  exact ⟨s', h, C155_entries env _ _ _ (by rw [herd_nr]; decide) h 2 0 (by rw [herd_get _ _ _ (by decide) (by decide)]; simp),
    C155_count env _ _ _ (by rw [herd_nr]; decide) h⟩

/-- C155: what EPMI keeps. -/
example (env : Env) : ∃ s', (herd .sparse).apply env (.scaling .epmi) = .ok s' ∧ s'.mat.val.get 3 1 ≠ 0 := by
  obtain ⟨s', h⟩ := (C05_apply_total env (herd .sparse) (herd_wf _) (by rw [herd_nr]; decide) (by rw [herd_nc]; decide)).1
    .epmi (herd_nonneg _)
  exact ⟨s', h, C155_kept env _ _ _ (by rw [herd_nr]; decide) (herd_nonneg _) (.inl rfl) h 3 1
    (by rw [herd_get _ _ _ (by decide) (by decide)]; simp)⟩

/-- C155: `unicorn` after PPMI and feature selection. -/
example (env : Env) : ∃ core, (herd .dense).applyAll env [.scaling .ppmi, .featsel 1 .sum] = .ok core ∧
    (∀ j, core.mat.val.get 2 j = 0) ∧ core.getSim "unicorn" "cat" .cos none = .ok 0 := by
  obtain ⟨core, h⟩ := herd_core env .dense .ppmi
  obtain ⟨_, h2, h3⟩ := C155_word env _ core _ (herd_wf _) (herd_ops _) (by rw [herd_nr]; decide) (by rw [herd_nc]; decide)
    (herd_exact _) (herd_noSvd env _ _) h 2 "unicorn" (by unfold Space.HasWord; rw [herd_words]; rfl)
    (fun j hj => by rw [herd_nc] at hj; rw [herd_get _ _ _ (by decide) hj]; simp)
  exact ⟨core, h, h2, (h3 "cat" (by rw [(applyAll_rows h).1, herd_words]; decide)).1⟩

/-- Peripheral spaces on such a core exist: here from the rows `ks` of the raw matrix. -/
theorem herd_periph (env : Env) (ty ty' : MTy) (st : ScalingT) (core : Space String)
    (h : (herd ty).applyAll env [.scaling st, .featsel 1 .sum] = .ok core) (ks : List ℕ) (hne : ks ≠ [])
    (hk : ∀ k ∈ ks, k < 5) (ws : List String) (hws : ws.Nodup) (hlen : ws.length = ks.length) :
    ∃ p, Periph.new core ⟨ty', (herd ty).mat.val.selRows ks⟩ ws none = .ok p := by
  obtain ⟨p, hp, _⟩ := C24_core_rows_reproduced env _ core _ (herd_wf ty) (herd_ops ty) (by rw [herd_nr]; decide)
    (by rw [herd_nc]; decide) (herd_exact st) (herd_noSvd env ty st) h ty' ks hne (by rw [herd_nr]; exact hk) ws hws hlen
  exact ⟨p, hp⟩

/-- C155, C156: peripheral words with no counts, with the same counts and with proportional counts. -/
example (env : Env) : ∃ core p p', (herd .dense).applyAll env [.scaling .ppmi, .featsel 1 .sum] = .ok core ∧
    Periph.new core ⟨.sparse, (herd .dense).mat.val.selRows [2, 1]⟩ ["a", "b"] none = .ok p ∧
    Periph.new core ⟨.dense, (herd .dense).mat.val.selRows [1, 0]⟩ ["x", "y"] none = .ok p' ∧
    (∀ j, p.mat.val.get 0 j = 0) ∧ (∀ j, p.mat.val.get 1 j = p'.mat.val.get 0 j) ∧
    (∀ j, p.mat.val.get 1 j = p'.mat.val.get 1 j) := by
  obtain ⟨core, h⟩ := herd_core env .dense .ppmi
  obtain ⟨p, hp⟩ := herd_periph env .dense .sparse .ppmi core h [2, 1] (by simp) (by decide) ["a", "b"] (by decide) rfl
  obtain ⟨p', hp'⟩ := herd_periph env .dense .dense .ppmi core h [1, 0] (by simp) (by decide) ["x", "y"] (by decide) rfl
  have g : ∀ (ks : List ℕ) (a i j : ℕ), ks[a]? = some i →
      ((herd .dense).mat.val.selRows ks).get a j = (herd .dense).mat.val.get i j :=
    fun ks a i j hi => Mat.selRows_get_some hi j
  have hcol : (herd .dense).mat.val.nc = 2 := herd_nc .dense
  refine ⟨core, p, p', h, hp, hp', ?_, ?_, ?_⟩
  · refine C155_peripheral core p _ _ none (by show 0 < 2; decide) hp 0 fun j hj => ?_
    have hj' : j < (herd .dense).mat.val.nc := hj
    show ((herd .dense).mat.val.selRows [2, 1]).get 0 j = 0
    rw [g _ 0 2 j rfl, herd_get _ _ _ (by decide) (by omega)]
    simp
  · refine (C156_peripheral core p p' _ _ _ _ none none hp hp' 1 0 (by show 1 < 2; decide) (by show 0 < 2; decide) rfl
      fun j hj => ?_).2
    show ((herd .dense).mat.val.selRows [2, 1]).get 1 j = ((herd .dense).mat.val.selRows [1, 0]).get 0 j
    rw [g _ 1 1 j rfl, g _ 0 1 j rfl]
  · refine C156_peripheral_proportional env _ core p p' (.scaling .ppmi) [.featsel 1 .sum] trivial (herd_ops _) h _ _ _ _ none
      none hp hp' 1 1 (by show 1 < 2; decide) (by show 1 < 2; decide) rfl 2 (by norm_num) fun j hj => ?_
    have hj' : j < (herd .dense).mat.val.nc := hj
    show ((herd .dense).mat.val.selRows [2, 1]).get 1 j = 2 * ((herd .dense).mat.val.selRows [1, 0]).get 1 j
    rw [g _ 1 1 j rfl, g _ 1 0 j rfl, herd_get _ _ _ (by decide) (by omega), herd_get _ _ _ (by decide) (by omega)]
    simp
    split <;> norm_num

/-- C156: `dog` and `dogs` in the core space. -/
example (env : Env) : ∃ core, (herd .dense).applyAll env [.scaling .ppmi, .featsel 1 .sum] = .ok core ∧
    ∀ j, core.mat.val.get 1 j = core.mat.val.get 0 j := by
  obtain ⟨core, h⟩ := herd_core env .dense .ppmi
  refine ⟨core, h, C156_proportional env _ core (.scaling .ppmi) [.featsel 1 .sum] trivial (herd_ops _)
    (by rw [herd_nr]; decide) (by rw [herd_nc]; decide) (fun t ht => herd_exact .ppmi t (List.mem_cons_of_mem _ ht))
    (herd_noSvd env _ _) h 1 0 (by rw [herd_nr]; decide) (by rw [herd_nr]; decide) 2 (by norm_num) fun j hj => ?_⟩
  rw [herd_nc] at hj
  rw [herd_get _ _ _ (by decide) hj, herd_get _ _ _ (by decide) hj]
  simp
  split <;> norm_num

/-- C156: `dog` and `hound` in the core space. -/
example (env : Env) : ∃ core, (herd .dense).applyAll env [.scaling .plmi, .featsel 1 .sum] = .ok core ∧
    ∀ j, core.mat.val.get 4 j = core.mat.val.get 0 j := by
  obtain ⟨core, h⟩ := herd_core env .dense .plmi
  refine ⟨core, h, C156_core env _ core _ (herd_ops _) (by rw [herd_nr]; decide) (by rw [herd_nc]; decide) (herd_exact .plmi)
    (herd_noSvd env _ _) h 4 0 (by rw [herd_nr]; decide) (by rw [herd_nr]; decide) fun j hj => ?_⟩
  rw [herd_nc] at hj
  rw [herd_get _ _ _ (by decide) hj, herd_get _ _ _ (by decide) hj]
  simp

/-- C157: `dogs` is twice `dog` (plus nothing of `cat`), in the core and for peripheral words. -/
example (env : Env) : ∃ core p, (herd .dense).applyAll env [.scaling (.norm .sum), .featsel 1 .sum] = .ok core ∧
    Periph.new core ⟨.dense, (herd .dense).mat.val.selRows [1, 0, 3]⟩ ["x", "y", "z"] none = .ok p ∧
    (∀ j, core.mat.val.get 1 j = 2 * core.mat.val.get 0 j + 0 * core.mat.val.get 3 j) ∧
    (∀ j, p.mat.val.get 0 j = 2 * p.mat.val.get 1 j + 0 * p.mat.val.get 2 j) := by
  obtain ⟨core, h⟩ := herd_core env .dense (.norm .sum)
  obtain ⟨p, hp⟩ := herd_periph env .dense .dense (.norm .sum) core h [1, 0, 3] (by simp) (by decide) ["x", "y", "z"]
    (by decide) rfl
  have lin : ∀ t ∈ [Trans.scaling (.norm .sum), .featsel 1 .sum], t.Linear := by simp [Trans.Linear]
  have rel : ∀ j < 2, (herd .dense).mat.val.get 1 j =
      2 * (herd .dense).mat.val.get 0 j + 0 * (herd .dense).mat.val.get 3 j := by
    intro j hj
    rw [herd_get _ _ _ (by decide) hj, herd_get _ _ _ (by decide) hj, zero_mul]
    simp
    split <;> norm_num
  have g : ∀ (ks : List ℕ) (a i j : ℕ), ks[a]? = some i →
      ((herd .dense).mat.val.selRows ks).get a j = (herd .dense).mat.val.get i j :=
    fun ks a i j hi => Mat.selRows_get_some hi j
  refine ⟨core, p, h, hp, ?_, ?_⟩
  · exact C157_core env _ core _ lin (herd_ops _) (by rw [herd_nr]; decide) (by rw [herd_nc]; decide) (herd_exact _)
      (herd_noSvd env _ _) h 1 0 3 (by rw [herd_nr]; decide) (by rw [herd_nr]; decide) (by rw [herd_nr]; decide) 2 0
      (by rw [herd_nc]; exact rel)
  · refine C157_peripheral env _ core p _ lin (herd_ops _) h _ _ none hp 0 1 2 (by show 0 < 3; decide)
      (by show 1 < 3; decide) (by show 2 < 3; decide) 2 0 fun j hj => ?_
    have hj' : j < (herd .dense).mat.val.nc := hj
    show ((herd .dense).mat.val.selRows [1, 0, 3]).get 0 j = 2 * ((herd .dense).mat.val.selRows [1, 0, 3]).get 1 j +
      0 * ((herd .dense).mat.val.selRows [1, 0, 3]).get 2 j
    rw [g _ 0 1 j rfl, g _ 1 0 j rfl, g _ 2 3 j rfl]
    exact rel j (by rw [show (herd .dense).mat.val.nc = 2 from herd_nc .dense] at hj'; exact hj')

end Examples
end
end Dissect
