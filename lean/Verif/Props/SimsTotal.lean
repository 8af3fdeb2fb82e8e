import Verif.Props.Neighbours
import Verif.Props.Similarity
import Verif.Props.CoreSpace

/-! # C71, C82: on well-formed spaces the scripts always succeed -/

namespace Dissect
noncomputable section

theorem getSim_total {s target : Space Str} {space2 : Option (Space Str)} (sim : Sim) (w1 w2 : Str)
    (ht : target = space2.getD s) (h1 : s.WF) (h2 : target.WF) (hc : 0 < s.mat.nc) (hcc : s.mat.nc = target.mat.nc) :
    ∃ x, s.getSim w1 w2 sim space2 = .ok x := by
  obtain ⟨xs, hxs⟩ := C08_get_sims_total s target space2 sim ht h1 h2 hc hcc [(w1, w2)]
  obtain ⟨hl, h⟩ := (C08_get_sims s sim space2 _ xs).1 hxs
  match xs, hl with
  | [x], _ => exact ⟨x, h 0 (w1, w2) x rfl rfl⟩

/-- **C71** On spaces of the same width, with an input whose non-blank lines all have the two columns, the run succeeds:
unknown words are no obstacle. -/
theorem C71_total {L : Lib} {fs : Fs} {inFile base outDir d a b content : Str} {files : List Str} {i j : ℕ}
    {s target : Space Str} {s2 : Option (Space Str)} {measures : List Str} (hb : IsBase inFile base) (hn : IsFileName base)
    (ha : pyInt a = .ok ((i + 1 : ℕ) : ℤ)) (hb' : pyInt b = .ok ((j + 1 : ℕ) : ℤ)) (hnm : SpacesName files d)
    (hs : SpacesFrom L fs files s s2) (hr : fs.read inFile = .ok content)
    (ht : target = s2.getD s) (h1 : s.WF) (h2 : target.WF) (hc : 0 < s.mat.nc) (hcc : s.mat.nc = target.mat.nc)
    (hcols : ∀ words ∈ records content, i < words.length ∧ j < words.length)
    (ho : OutDir fs (fs.resolve (outDir ++ ['/'])))
    (hfree : ∀ m ∈ measures, ∀ sim, (m, sim) ∈ measureTable → fs.resolve (simsFile outDir base d m) ∉ fs.dirs) :
    ∃ fs', computeSim L inFile [a, b] outDir measures files fs = .ok fs' := by
  refine C71_succeeds hb hn ha hb' hnm hs hr ?_ ho hfree
  intro m _ sim _
  have key : ∀ ls : List Str, (∀ l ∈ ls, i < (split l).length ∧ j < (split l).length) →
      ∃ os, List.Forall₂ (SimLine L s s2 sim i j) ls os := by
    intro ls
    induction ls with
    | nil => intro _; exact ⟨[], .nil⟩
    | cons l ls ih =>
      intro h
      obtain ⟨os, hos⟩ := ih (fun x hx => h x (by simp [hx]))
      obtain ⟨hi, hj⟩ := h l (by simp)
      obtain ⟨x, hx⟩ := getSim_total sim (split l)[i] (split l)[j] ht h1 h2 hc hcc
      exact ⟨_ :: os, .cons ⟨_, _, x, List.getElem?_eq_getElem hi, List.getElem?_eq_getElem hj, hx, rfl⟩ hos⟩
  obtain ⟨os, hos⟩ := key (textLines content) (by
    intro l hl
    apply hcols
    rw [← split_strippedLines]
    exact List.mem_map_of_mem hl)
  exact ⟨_, os, hos, rfl⟩

/-- **C82** On spaces of the same width, with an input whose lines are words of the (first) space, the run succeeds. -/
theorem C82_total {L : Lib} {fs : Fs} {inFile base outDir d m content : Str} {n : ℤ} {files : List Str}
    {s target : Space Str} {s2 : Option (Space Str)} {sim : Sim} (hb : IsBase inFile base) (hnm : SpacesName files d)
    (hs : SpacesFrom L fs files s s2) (hk : (m, sim) ∈ measureTable) (hr : fs.read inFile = .ok content)
    (ht : target = s2.getD s) (h1 : s.WF) (h2 : target.WF) (hc : 0 < s.mat.nc) (hcc : s.mat.nc = target.mat.nc)
    (hrow : 0 < target.id2row.length) (hw : ∀ w ∈ textLines content, w ∈ s.id2row)
    (ho : OutDir fs (fs.resolve (outDir ++ ['/'])))
    (hfree : fs.resolve (neighboursFile outDir base d m) ∉ fs.dirs) :
    ∃ fs', computeNeighbours L inFile n outDir m files fs = .ok fs' := by
  refine C82_succeeds hb hnm hs hk hr ?_ ho hfree
  intro w hw'
  obtain ⟨res, _, h, _⟩ := C09_top_n s target s2 sim w n ht h1 h2 hc hcc (hw w hw') hrow
  exact ⟨res, h⟩

/-- A file system with a space and a list of word pairs. -/
def exFs2 : Fs := ⟨[cs!"home"], [[], [cs!"home"], [cs!"data"]],
  ((Dict.empty).set [cs!"data", cs!"in.pkl"] cs!"S").set [cs!"data", cs!"pairs.txt"] cs!"1 dog cat\n\n  2 cat unicorn x \n"⟩

theorem exFs2_keys : exFs2.files.keys = [[cs!"data", cs!"in.pkl"], [cs!"data", cs!"pairs.txt"]] := rfl

theorem exFs2_ok : exFs2.Ok := by
  refine ⟨by decide, by decide, ?_, ?_, ?_⟩
  · show ∀ d ∈ [[], [cs!"home"], [cs!"data"]], d.dropLast ∈ [[], [cs!"home"], [cs!"data"]]
    decide
  · rw [exFs2_keys]
    show ∀ f ∈ [[cs!"data", cs!"in.pkl"], [cs!"data", cs!"pairs.txt"]], f.dropLast ∈ [[], [cs!"home"], [cs!"data"]]
    decide
  · rw [exFs2_keys]
    show ∀ f ∈ [[cs!"data", cs!"in.pkl"], [cs!"data", cs!"pairs.txt"]], f ∉ [[], [cs!"home"], [cs!"data"]]
    decide

/-- A run that meets the hypotheses of `C71_total` (and so of `C71_scores`). -/
example (L : Lib) (s : Space Str) (hs : s.WF) (hm : s.mat = exMat .sparse) (hu : L.undump cs!"S" = some (.space s)) :
    ∃ fs' content out, computeSim L cs!"/data/pairs.txt" [cs!"2", cs!"3"] cs!"/out/x" [cs!"cos", cs!"foo", cs!"lin"]
        [cs!"/data/in.pkl"] exFs2 = .ok fs' ∧
      textLines content = [cs!"1 dog cat", cs!"2 cat unicorn x"] ∧ SimFile L s none .lin 1 2 content out ∧
      fs'.read cs!"/out/x/SIMS.pairs.txt.in.lin" = .ok out := by
  have hb : IsBase cs!"/data/pairs.txt" cs!"pairs.txt" := ⟨by decide, Or.inr ⟨cs!"/data", rfl⟩⟩
  have hn : IsFileName cs!"pairs.txt" := ⟨by decide, by decide⟩
  have hnm : SpacesName [cs!"/data/in.pkl"] cs!"in" :=
    .one (by simp) ⟨cs!"in.pkl", ⟨by decide, Or.inr ⟨cs!"/data", rfl⟩⟩, Or.inl ⟨cs!"pkl", by decide, rfl⟩⟩
  have hsp : SpacesFrom L exFs2 [cs!"/data/in.pkl"] s none := .one ⟨cs!"S", rfl, hu⟩ (by simp)
  have hr : exFs2.read cs!"/data/pairs.txt" = .ok cs!"1 dog cat\n\n  2 cat unicorn x \n" := rfl
  have hlines : textLines cs!"1 dog cat\n\n  2 cat unicorn x \n" = [cs!"1 dog cat", cs!"2 cat unicorn x"] := rfl
  have hd : exFs2.dirs = [[], [cs!"home"], [cs!"data"]] := rfl
  have h2 : pyInt cs!"2" = .ok ((1 + 1 : ℕ) : ℤ) := rfl
  have h3 : pyInt cs!"3" = .ok ((2 + 1 : ℕ) : ℤ) := rfl
  obtain ⟨fs', h⟩ := C71_total (outDir := cs!"/out/x") (measures := [cs!"cos", cs!"foo", cs!"lin"]) hb hn h2 h3 hnm hsp hr
    (target := s) rfl hs hs (by rw [hm]; simp [exMat, TMat.nc]) rfl
    (by
      have : records cs!"1 dog cat\n\n  2 cat unicorn x \n" = [[cs!"1", cs!"dog", cs!"cat"], [cs!"2", cs!"cat", cs!"unicorn", cs!"x"]] := rfl
      rw [this]; simp)
    ⟨exFs2_ok, by
      rw [exFs2_keys]
      show ∀ f ∈ [[cs!"data", cs!"in.pkl"], [cs!"data", cs!"pairs.txt"]], ¬ f <+: [cs!"out", cs!"x"]
      decide⟩
    (by
      intro m hm sim hk
      rw [hd]
      simp only [List.mem_cons, List.not_mem_nil, or_false] at hm
      rcases hm with rfl | rfl | rfl
      · decide
      · decide
      · decide)
  obtain ⟨c, out, c1, c2, c3⟩ := C71_scores hb hn h2 h3 hnm hsp h (m := cs!"lin") (sim := .lin) (by simp) (by decide)
  rw [hr] at c1
  obtain rfl := ok_inj c1
  exact ⟨fs', _, out, h, hlines, c2, c3⟩

end
end Dissect
