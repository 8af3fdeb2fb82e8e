import Verif.Examples.Runs
import Verif.Props.Misspelt

/-! # Concrete instances: C164 -/

namespace Dissect
noncomputable section
namespace Examples

/-- A misspelt weighting, a selection without size, a reduction the script does not have and a misspelt normalisation. -/
def typos : Choice := ⟨some cs!"pppmi", some cs!"top_sum", some cs!"pca_10", some cs!"rows"⟩

theorem typos_meaningless : typos.Meaningless where
  w := by decide
  s := by
    intro x hx d _ h
    simp only [selectionTable, List.mem_cons, List.not_mem_nil, or_false] at hx
    rcases hx with rfl | rfl <;> simp [typos] at h
  r := by
    intro x hx d _ h
    simp only [List.mem_cons, List.not_mem_nil, or_false] at hx
    rcases hx with rfl | rfl <;> simp [typos] at h
  n := by decide

theorem typos_noSlash : typos.NoSlash := by
  intro t ht x hx
  subst hx
  simp only [typos, List.mem_cons, List.not_mem_nil, or_false, Option.some.injEq] at ht
  rcases ht with rfl | rfl | rfl | rfl <;> decide

/-- C164: a file that claims four operations holds the untouched input. -/
example : ∃ fs', buildSpaces demo demoFs cs!"/data/in" cs!"pkl" cs!"/out/x" none [some cs!"pppmi"] [some cs!"top_sum"]
      [some cs!"pca_10"] [some cs!"rows"] false = .ok fs' ∧
    fs'.read cs!"/out/x/CORE_SS.in.pppmi.top_sum.pca_10.rows.pkl" = .ok (demo.dump (.space zoo)) :=
  C164_refuted in_base typos typos_meaningless typos_noSlash (InputSpace.pickle (gz := false) (in_pkl_any sumModel)) demo_out
    (by decide)

theorem zero_bad : BadSize cs!"0" := by
  refine ⟨by decide, fun n hn => ?_⟩
  have h := (C132_whole_numbers.1 n).2 hn
  have h0 : pyInt cs!"0" = .ok 0 := rfl
  rw [h0] at h
  have := ok_inj h
  omega

/-- C164: dimensions that make no sense, wherever they occur. -/
example : ∃ e, buildSpaces demo demoFs cs!"/data/in" cs!"pkl" cs!"/out/x" none ws2 [none, some cs!"top_sum_2"]
    [none, some cs!"svd_0"] [none] false = .error e :=
  C164_size_partial ⟨some cs!"ppmi", none, some cs!"svd_0", none⟩ ⟨by simp [ws2], by simp, by simp, by simp⟩
    (.inr ⟨cs!"svd_", by simp, cs!"0", zero_bad, rfl⟩)

/-- C164: the first combination decides. -/
example : buildSpaces demo demoFs cs!"/data/in" cs!"pkl" cs!"/out/x" none [none, some cs!"ppmi"] [some cs!"top_length_0"]
      [none] [none] false = .error .valueError ∧
    buildSpaces demo demoFs cs!"/data/in" cs!"pkl" cs!"/out/x" none [none] [none] [some cs!"nmf_0"] [none] false =
      .error .valueError := by
  have hw : ∀ a, WMeans none a → ∃ x, zoo.applyAll demo.env a = .ok x := by
    intro a ha
    rw [(wskip (.inl rfl)).1 ha]
    exact ⟨_, rfl⟩
  refine ⟨C164_size_error_partial (InputSpace.pickle (gz := false) (in_pkl_any sumModel)) (.inl (.inl rfl)) hw
    (.inl ⟨(cs!"top_length_", .length), by simp [selectionTable], cs!"0", zero_bad, rfl⟩),
    C164_size_error_partial (InputSpace.pickle (gz := false) (in_pkl_any sumModel)) (.inl (.inl rfl)) hw
      (.inr ⟨⟨cs!"nmf_", by simp, cs!"0", zero_bad, rfl⟩, .inl (.inl rfl), ?_⟩)⟩
  intro a b ha hb
  rw [(wskip (.inl rfl)).1 ha, (sskip (.inl rfl)).1 hb]
  exact ⟨_, rfl⟩

end Examples
end
end Dissect
