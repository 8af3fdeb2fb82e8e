import Verif.Spec.Input
import Verif.Lemmas.Main

/-! The input space of the two space building scripts. -/

namespace Dissect
noncomputable section

theorem labelFile_iff {fs : Fs} {f : Str} {o : Option Str} : LabelFile fs f o ↔ fileIfExists fs f = o := by
  unfold LabelFile fileIfExists
  cases fs.exists_ f <;> simp [eq_comm]

theorem readInput_ok {L : Lib} {fs : Fs} {pre fmt : Str} {gz : Bool} {s : Space Str} :
    readInput L fs pre fmt gz = .ok s ↔ InputSpace L fs pre gz fmt s := by
  have hdata : ∀ fmt : Str, (if gz then pre ++ ['.'] ++ fmt ++ cs!".gz" else pre ++ ['.'] ++ fmt) = dataFile pre fmt gz := by
    intro fmt; unfold dataFile; cases gz <;> simp
  have hcols : ∀ {o : Option Str}, fileIfExists fs (pre ++ cs!".cols") = o → (o ≠ none ↔ fs.exists_ (pre ++ cs!".cols") = true) := by
    rintro o rfl; unfold fileIfExists; cases fs.exists_ (pre ++ cs!".cols") <;> simp
  constructor
  · intro h
    unfold readInput at h
    simp only [hdata] at h
    split at h
    · cases h
    · rename_i hf
      split at h
      · rename_i hp
        subst hp
        rw [loadSpace_ok, ← pkl_eq] at h
        exact .pickle h
      · rename_i hp
        split at h
        · cases h
        · rename_i hc
          by_cases hsm : fmt = fmtSm
          · subst hsm
            have hc' : fileIfExists fs (pre ++ cs!".cols") ≠ none := fun h => hc ⟨h, rfl⟩
            have hx := (hcols rfl).1 hc'
            refine .sparse (labelFile_iff.2 rfl) hx ?_
            rw [← h]
            have : fileIfExists fs (pre ++ cs!".cols") = some (pre ++ cs!".cols") := by
              unfold fileIfExists; rw [if_pos hx]
            rw [this]; rfl
          · have hdm : fmt = fmtDm := by
              by_contra hn; exact hf ⟨hsm, hn, hp⟩
            subst hdm
            exact .dense (labelFile_iff.2 rfl) (labelFile_iff.2 rfl) h
  · intro h
    cases h with
    | pickle h =>
      unfold readInput
      rw [if_neg (by simp), if_pos rfl, loadSpace_ok, ← pkl_eq]
      exact h
    | sparse h1 h2 h3 =>
      have hx : fileIfExists fs (pre ++ cs!".cols") = some (pre ++ cs!".cols") := by unfold fileIfExists; rw [if_pos h2]
      unfold readInput
      simp only [hdata]
      rw [if_neg (by simp [fmtSm]), if_neg (by decide), if_neg (by simp [hx]), labelFile_iff.1 h1, hx]
      exact h3
    | dense h1 h2 h3 =>
      unfold readInput
      simp only [hdata]
      rw [if_neg (by simp [fmtDm]), if_neg (by decide), if_neg (by simp [fmtSm]), labelFile_iff.1 h1, labelFile_iff.1 h2]
      exact h3

/-- An unknown format, or a sparse matrix without column labels, is refused. -/
theorem readInput_bad {L : Lib} {fs : Fs} {pre fmt : Str} {gz : Bool}
    (h : fmt ∉ [cs!"pkl", cs!"sm", cs!"dm"] ∨ (fmt = cs!"sm" ∧ fs.exists_ (pre ++ cs!".cols") = false)) :
    readInput L fs pre fmt gz = .error .valueError := by
  unfold readInput
  rcases h with h | ⟨rfl, h⟩
  · simp only [List.mem_cons, List.not_mem_nil, or_false, not_or] at h
    rw [if_pos ⟨h.2.1, h.2.2, h.1⟩]
  · rw [if_neg (by simp [fmtSm]), if_neg (by decide), if_pos]
    exact ⟨by unfold fileIfExists; rw [h]; rfl, rfl⟩

end
end Dissect
