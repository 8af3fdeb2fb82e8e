import Verif.Props.PeriphScript
import Verif.Props.Sims
import Verif.Props.Neighbours

/-! # C108: the input directory of the batch scripts -/

namespace Dissect
noncomputable section

theorem resolve_withSlash (fs : Fs) {d : Str} (hd : d ≠ []) : fs.resolve (withSlash d) = fs.resolve d := by
  unfold withSlash
  split
  · rfl
  · have habs : isAbs (d ++ ['/']) = isAbs d := by
      unfold isAbs
      cases d with
      | nil => exact absurd rfl hd
      | cons => simp
    have hp : pathComps (d ++ ['/']) = pathComps d := by
      rw [pathComps_slash]; simp
    unfold Fs.resolve
    rw [habs, hp]

/-- The three batch functions on one input directory; `raw` is the input of `build_peripheral_space`. -/
def BatchAllRaise (L : Lib) (fs : Fs) (inDir : Str) (e : PyErr) : Prop :=
  (∀ inFile columns outDir measures, computeSimBatch L inFile columns outDir measures inDir fs = .error e) ∧
  (∀ columns measures filter, evaluateSimBatch L fs inDir columns measures filter = .error e) ∧
  ∀ pre fmt outDir outFormat filter gz raw, InputSpace L fs pre gz fmt raw →
    buildPeriphBatch L fs pre fmt outDir outFormat inDir filter gz = .error e

/-- **C108** an input directory that does not exist: `ValueError`, in all three batch scripts. -/
theorem C108_missing (L : Lib) (fs : Fs) (inDir : Str) (h : fs.exists_ inDir = false) :
    BatchAllRaise L fs inDir .valueError := by
  refine ⟨fun _ _ _ _ => ?_, fun _ _ _ => ?_, fun _ _ _ _ _ _ raw hr => C81_batch_no_dir hr h⟩
  · simp only [computeSimBatch, h]
    rfl
  · simp only [evaluateSimBatch, h]
    rfl

/-- **C108** the name of a regular file (without a slash at the end, which the file system model ignores) given as input
directory: `OSError`. -/
theorem C108_regular_file (L : Lib) (fs : Fs) (inDir : Str) (h0 : inDir ≠ []) (_hs : inDir.getLast? ≠ some '/')
    (hf : fs.files.contains (fs.resolve inDir) = true) (hd : fs.resolve inDir ∉ fs.dirs) :
    BatchAllRaise L fs inDir .osError := by
  have hex : fs.exists_ inDir = true := by
    unfold Fs.exists_
    rw [decide_eq_true_eq]
    exact ⟨h0, Or.inr hf⟩
  have hl : fs.listdir L.dirOrder (withSlash inDir) = .error .osError := by
    unfold Fs.listdir
    rw [if_neg]
    rw [resolve_withSlash fs h0]
    exact fun h => hd h.2
  refine ⟨fun _ _ _ _ => ?_, fun _ _ _ => ?_, fun _ _ _ _ _ _ raw hr => ?_⟩
  · simp only [computeSimBatch, hex, hl]
    rfl
  · simp only [evaluateSimBatch, hex, hl]
    rfl
  · simp only [buildPeriphBatch, readInput_ok.2 hr, ok_bind, hex, hl]
    rfl

/-- **C108** an existing directory without a matching entry: success, and nothing is written or evaluated. -/
theorem C108_no_match (L : Lib) (fs : Fs) (inDir : Str) (h0 : inDir ≠ []) (hd : fs.resolve inDir ∈ fs.dirs)
    (hord : ∀ l, (L.dirOrder l).Perm l) :
    ((∀ f ∈ fs.children (fs.resolve inDir), ¬ cs!".pkl" <:+ f) → ∀ inFile columns outDir measures,
      computeSimBatch L inFile columns outDir measures inDir fs = .ok fs) ∧
    (∀ filter, (∀ f ∈ fs.children (fs.resolve inDir), ¬ filter <:+: f) → ∀ columns measures,
      evaluateSimBatch L fs inDir columns measures filter = .ok []) ∧
    (∀ filter, (∀ f ∈ fs.children (fs.resolve inDir), filter <:+: f → ¬ cs!".pkl" <:+ f) →
      ∀ pre fmt outDir outFormat gz raw, InputSpace L fs pre gz fmt raw →
        buildPeriphBatch L fs pre fmt outDir outFormat inDir filter gz = .ok fs) := by
  have hex : fs.exists_ inDir = true := by
    unfold Fs.exists_
    rw [decide_eq_true_eq]
    exact ⟨h0, Or.inl hd⟩
  have hws : withSlash inDir ≠ [] := by
    unfold withSlash
    split
    · exact h0
    · simp
  have hl : fs.listdir L.dirOrder (withSlash inDir) = .ok (L.dirOrder (fs.children (fs.resolve inDir))) := by
    unfold Fs.listdir
    rw [if_pos ⟨hws, by rw [resolve_withSlash fs h0]; exact hd⟩, resolve_withSlash fs h0]
  have hm : ∀ {f}, f ∈ L.dirOrder (fs.children (fs.resolve inDir)) → f ∈ fs.children (fs.resolve inDir) :=
    fun h => (hord _).mem_iff.1 h
  refine ⟨fun h _ _ _ _ => ?_, fun filter h _ _ => ?_, fun filter h _ _ _ _ _ raw hr => ?_⟩
  · have : (L.dirOrder (fs.children (fs.resolve inDir))).filter isPkl = [] := by
      rw [List.filter_eq_nil_iff]
      intro f hf
      simp only [isPkl, decide_eq_true_eq]
      exact h f (hm hf)
    simp only [computeSimBatch, hex, if_true, hl, ok_bind, this]
    rfl
  · have : (L.dirOrder (fs.children (fs.resolve inDir))).filter (fun f => containsStr f filter) = [] := by
      rw [List.filter_eq_nil_iff]
      intro f hf
      simp only [containsStr, decide_eq_true_eq]
      exact h f (hm hf)
    simp only [evaluateSimBatch, hex, if_true, hl, ok_bind, this]
    rfl
  · have : (L.dirOrder (fs.children (fs.resolve inDir))).filter (fun f => containsStr f filter && isPkl f) = [] := by
      rw [List.filter_eq_nil_iff]
      intro f hf
      simp only [containsStr, isPkl, Bool.and_eq_true, decide_eq_true_eq, not_and]
      exact h f (hm hf)
    simp only [buildPeriphBatch, readInput_ok.2 hr, ok_bind, hex, if_true, hl, this]
    rfl

/-- Non-vacuity of C108: a missing directory, a file used as directory, a directory without matching entries. -/
example : exFs.exists_ cs!"/nowhere" = false ∧
    (exFs.files.contains (exFs.resolve cs!"/data/in.pkl") = true ∧ exFs.resolve cs!"/data/in.pkl" ∉ exFs.dirs) ∧
    exFs.resolve cs!"/home" ∈ exFs.dirs ∧ exFs.children (exFs.resolve cs!"/home") = [] := by
  refine ⟨by decide, by decide, by decide, by decide⟩

end
end Dissect
