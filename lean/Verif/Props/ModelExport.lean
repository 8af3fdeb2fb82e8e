import Verif.Lemmas.CrashSafe
import Verif.Props.Training
import Verif.Lemmas.IoWrite
import Verif.Props.RoundTrip
import Verif.Spec.Composition

/-! # C86, C91: exporting a model, and replacing a file -/

namespace Dissect
noncomputable section

theorem split_newline (s : Str) : ∀ cur, splitAux cur (s ++ ['\n']) = splitAux cur s := by
  induction s with
  | nil => intro cur; by_cases h : cur = [] <;> simp [splitAux, h, isWs_newline]
  | cons c s ih =>
    intro cur
    simp only [List.cons_append, splitAux, ih]

/-- A newline at the end of a file makes no difference to the records. -/
theorem records_newline (s : Str) : records (s ++ ['\n']) = records s := by
  have key : ∀ cur, ((linesAux cur (s ++ ['\n'])).map split).filter (fun t => decide (t ≠ [])) =
      ((linesAux cur s).map split).filter (fun t => decide (t ≠ [])) := by
    induction s with
    | nil =>
      intro cur
      have : split (cur ++ ['\n']) = split cur := split_newline cur []
      by_cases h : cur = []
      · subst h; simp [linesAux, split, splitAux, isWs_newline]
      · simp [linesAux, h, this]
    | cons c s ih =>
      intro cur
      by_cases hc : c = '\n'
      · simp only [List.cons_append, linesAux, if_pos hc, List.map_cons, List.filter_cons, ih]
      · simp only [List.cons_append, linesAux, if_neg hc, ih]
  exact key []

theorem records_params {ls : List (List Str)} (h : ∀ l ∈ ls, l ≠ [] ∧ ∀ w ∈ l, IsWord w) {txt : Str}
    (ht : txt ++ ['\n'] = (ls.map (fun l => joinStr ['\t'] l ++ ['\n'])).flatten) : records txt = ls := by
  rw [← records_newline, ht, records_lines h]

/-- The file consists of one line per parameter, with its name and a numeral within `10^-6` of its value. -/
def ParamsIn (io : NumIO) (fs : Fs) (file : Str) (params : List (Str × ℝ)) : Prop :=
  ∃ txt, fs.read file = .ok txt ∧ List.Forall₂ (fun (r : List Str) (p : Str × ℝ) =>
    ∃ num y, r = [p.1, num] ∧ io.parse num = some y ∧ |y - p.2| ≤ 1 / 1000000) (records txt) params

/-- **C86** `export` of a trained `WeightedAdditive` model: the file has the two parameters, by name, within `10^-6`. -/
theorem C86_weighted_additive {L : Lib} {F : Set ℝ} (hF : L.io.Laws F) {a b : ℝ} (ha : a ∈ F) (hb : b ∈ F)
    {cols : Option (List Str)} {fs fs' : Fs} {file : Str}
    (h : exportModel L fs (.composer ⟨.weighted a b, cols⟩) file = .ok fs') :
    ParamsIn L.io fs' file [(cs!"alpha", a), (cs!"beta", b)] := by
  unfold exportModel at h
  simp only [] at h
  rw [bind_eq_ok] at h
  obtain ⟨fs1, -, h⟩ := h
  refine ⟨_, Fs.read_write_same h, ?_⟩
  rw [records_params (ls := [[cs!"alpha", L.io.fmtF a], [cs!"beta", L.io.fmtF b]])]
  · obtain ⟨y, h1, h2⟩ := hF.fmtF_parse a ha
    obtain ⟨z, h3, h4⟩ := hF.fmtF_parse b hb
    exact .cons ⟨_, y, rfl, h1, h2⟩ (.cons ⟨_, z, rfl, h3, h4⟩ .nil)
  · intro l hl
    simp only [List.mem_cons, List.not_mem_nil, or_false] at hl
    have hw1 : IsWord cs!"alpha" := ⟨by simp, by decide⟩
    have hw2 : IsWord cs!"beta" := ⟨by simp, by decide⟩
    rcases hl with rfl | rfl
    · refine ⟨by simp, ?_⟩
      intro w hw
      simp only [List.mem_cons, List.not_mem_nil, or_false] at hw
      rcases hw with rfl | rfl
      · exact hw1
      · exact hF.fmtF_word a ha
    · refine ⟨by simp, ?_⟩
      intro w hw
      simp only [List.mem_cons, List.not_mem_nil, or_false] at hw
      rcases hw with rfl | rfl
      · exact hw2
      · exact hF.fmtF_word b hb
  · simp [paramText, joinStr]

/-- **C86** `export` of a trained `Dilation` model. -/
theorem C86_dilation {L : Lib} {F : Set ℝ} (hF : L.io.Laws F) {l : ℝ} (hl : l ∈ F) {cols : Option (List Str)}
    {fs fs' : Fs} {file : Str} (h : exportModel L fs (.composer ⟨.dilation l, cols⟩) file = .ok fs') :
    ParamsIn L.io fs' file [(cs!"lambda", l)] := by
  unfold exportModel at h
  simp only [] at h
  rw [bind_eq_ok] at h
  obtain ⟨fs1, -, h⟩ := h
  refine ⟨_, Fs.read_write_same h, ?_⟩
  rw [records_params (ls := [[cs!"lambda", L.io.fmtF l]])]
  · obtain ⟨y, h1, h2⟩ := hF.fmtF_parse l hl
    exact .cons ⟨_, y, rfl, h1, h2⟩ .nil
  · intro t ht
    simp only [List.mem_cons, List.not_mem_nil, or_false] at ht
    subst ht
    refine ⟨by simp, ?_⟩
    intro w hw
    simp only [List.mem_cons, List.not_mem_nil, or_false] at hw
    rcases hw with rfl | rfl
    · exact ⟨by simp, by decide⟩
    · exact hF.fmtF_word l hl
  · simp [paramText, joinStr]

/-- **C86** `export` of a trained `FullAdditive` model: the file shows matrices `A` and `B`, and the column `C` after the
heading `Intercept` when the model has an intercept, such that composing `u` and `v` with the model gives exactly
`A u + B v + C`. (`strMat` is `str` of a numpy matrix, which is not modelled further.) -/
theorem C86_full_additive {L : Lib} {a b : TMat ℝ} {i : Bool} {l : Option Learner} {cols : Option (List Str)}
    {n1 n2 w : ℕ} (hf : (CModel.fullAdditive (some a) (some b) i l).Fits n1 n2 w) {fs fs' : Fs} {file : Str}
    (h : exportModel L fs (.composer ⟨.fullAdditive (some a) (some b) i l, cols⟩) file = .ok fs') :
    ∃ (A B : Mat ℝ) (C : Option (Mat ℝ)),
      (A.nr = w ∧ A.nc = n1) ∧ (B.nr = w ∧ B.nc = n2) ∧ (C.isSome = i ∧ ∀ c ∈ C, c.nr = w ∧ c.nc = 1) ∧
      fs'.read file = .ok (cs!"A\n" ++ L.strMat A ++ cs!"\nB\n" ++ L.strMat B ++
        (match C with | some c => cs!"\nIntercept\n" ++ L.strMat c | none => [])) ∧
      ∀ (u v : ℕ → ℝ) (j : ℕ), (CModel.fullAdditive (some a) (some b) i l).vec n1 n2 u v j =
        affineVec n1 n2 A.get B.get (fun j => match C with | some c => c.get j 0 | none => 0) u v j := by
  obtain ⟨-, -, -, ha, hb, hwa, hwb⟩ := hf
  unfold exportModel at h
  simp only [] at h
  rw [bind_eq_ok] at h
  obtain ⟨fs1, -, h⟩ := h
  have hr := Fs.read_write_same h
  unfold fullAdditiveText at hr
  cases i with
  | false =>
    refine ⟨a.val.transpose, b.val.transpose, none, ⟨hwa, ha⟩, ⟨hwb, hb⟩, ⟨rfl, by simp⟩, ?_, ?_⟩
    · simpa using hr
    · intro u v j; rfl
  | true =>
    replace hb : b.val.nr = n2 + 1 := hb
    refine ⟨a.val.transpose, (b.val.selRows ((List.range b.nr).dropLast)).transpose,
      some (b.val.selRows [b.nr - 1]).transpose, ⟨hwa, ha⟩, ⟨hwb, ?_⟩, ⟨rfl, ?_⟩, ?_, ?_⟩
    · simp [TMat.nr, hb]
    · intro c hc
      simp only [Option.mem_some_iff] at hc
      subst hc
      exact ⟨hwb, rfl⟩
    · simpa using hr
    · intro u v j
      have hd : (List.range b.nr).dropLast = List.range n2 := by
        simp only [TMat.nr, hb, List.range_succ, List.dropLast_concat]
      have h1 : (b.val.selRows [b.nr - 1]).get 0 j = b.val.get n2 j := by
        rw [Mat.selRows_get_some (r := n2)]
        simp [TMat.nr, hb]
      have h2 : dot n2 (fun k => (b.val.selRows ((List.range b.nr).dropLast)).get k j) v =
          dot n2 (fun k => b.val.get k j) v := by
        unfold dot
        refine Finset.sum_congr rfl fun k hk => ?_
        beta_reduce
        rw [Mat.selRows_get_some (r := k)]
        rw [hd]
        exact List.getElem?_range (Finset.mem_range.1 hk)
      simp only [CModel.vec, affineVec, Mat.transpose_get, if_true]
      rw [h1]
      have h3 : dot n2 ((b.val.selRows ((List.range b.nr).dropLast)).transpose.get j) v =
          dot n2 (fun k => b.val.get k j) v := h2
      rw [h3]
      rfl

/-- A trained model with an intercept meets the hypotheses: `A = (2)`, `B = (3)`, `c = 7`. -/
example {L : Lib} :
    (CModel.fullAdditive (some ⟨.dense, Mat.of 1 1 (fun _ _ => 2)⟩)
      (some ⟨.dense, Mat.of 2 1 (fun i _ => if i = 0 then 3 else 7)⟩) true none).Fits 1 1 1 ∧
    ∃ fs', exportModel L fs0 (.composer ⟨.fullAdditive (some ⟨.dense, Mat.of 1 1 (fun _ _ => 2)⟩)
      (some ⟨.dense, Mat.of 2 1 (fun i _ => if i = 0 then 3 else 7)⟩) true none, none⟩) cs!"m/x.params" = .ok fs' := by
  refine ⟨⟨by decide, by decide, by decide, rfl, rfl, rfl, rfl⟩, ?_⟩
  obtain ⟨fs', h, -⟩ := C62_save_partial fs0_ok (name := cs!"m/x.params")
    (content := fullAdditiveText L ⟨.dense, Mat.of 1 1 (fun _ _ => 2)⟩
      ⟨.dense, Mat.of 2 1 (fun i _ => if i = 0 then 3 else 7)⟩ true)
    (by decide) (by decide) (by decide) (by decide) (by simp [fs0, Dict.empty, Dict.keys])
  exact ⟨fs', h⟩

/-- A model without parameters to export: `Multiplicative`, an untrained `FullAdditive` or `LexicalFunction`. -/
def NothingToExport : PyObj → Prop
  | .composer ⟨.multiplicative, _⟩ => True
  | .composer ⟨.fullAdditive a b _ _, _⟩ => a = none ∨ b = none
  | .lexfun m => m.functions = none
  | _ => False

theorem unchanged {fs g : Fs} (h : OneBroken fs g (fun _ _ => False) (fun _ => False)) (p : Str) : g.read p = fs.read p := by
  obtain ⟨h1, -, q, h3⟩ := h
  refine read_congr h1 ?_
  rcases h3 (fs.resolve p) with h | ⟨_, h, -⟩ | ⟨-, h⟩
  · exact h
  · exact h.elim
  · exact h.elim

/-- **C86** Exporting a `Multiplicative` or an untrained model raises an exception, and at no moment is any file created
or changed. -/
theorem C86_nothing_to_export {L : Lib} {fs : Fs} {m : PyObj} (hm : NothingToExport m) (file : Str) :
    (∃ e, exportModel L fs m file = .error e) ∧
      ∀ g, (exportModelR L fs m file).seen g → ∀ p, g.read p = fs.read p := by
  have hsafe : CrashSafe fs (fun _ _ => False) (fun _ => False) (exportModelR L fs m file) ∧
      ∃ e, (exportModelR L fs m file).out = .error e := by
    have hcp : ∀ e, CrashSafe fs (fun _ _ => False) (fun _ => False)
        ((createParentR fs file).andThen (fun fs1 => .fail fs1 e)) ∧
        ∃ e', ((createParentR fs file).andThen (fun fs1 => .fail fs1 e)).out = .error e' := by
      intro e
      refine ⟨.andThen (.createParentR (NoneBroken.refl fs)) (fun fs1 _ h1 => .fail h1), ?_⟩
      rw [Run.andThen_out]
      cases (createParentR fs file).out with
      | error e' => exact ⟨e', rfl⟩
      | ok fs1 => exact ⟨e, rfl⟩
    unfold NothingToExport at hm
    split at hm
    · exact ⟨.fail (NoneBroken.refl fs), _, rfl⟩
    · rename_i a b i l c
      rcases a with _ | a
      · exact hcp _
      · rcases b with _ | b
        · exact hcp _
        · simp at hm
    · rename_i m
      have := hcp .illegalStateError
      unfold exportModelR
      simpa only [hm] using this
    · exact hm.elim
  obtain ⟨h1, e, h2⟩ := hsafe
  refine ⟨⟨e, by rw [← exportModelR_out]; exact h2⟩, fun g hg p => unchanged (h1.seen g hg) p⟩

/-- **C86** Which exception: `IllegalOperationError` for `Multiplicative`, whatever the file. -/
theorem C86_no_parameters {L : Lib} {fs : Fs} {cols : Option (List Str)} (file : Str) :
    exportModel L fs (.composer ⟨.multiplicative, cols⟩) file = .error .illegalOperationError := rfl

/-- **C86** Which exception: `IllegalStateError` for the other two, unless the directory of the file can not be created. -/
theorem C86_untrained {L : Lib} {fs fs1 : Fs} {m : PyObj} (hm : NothingToExport m)
    (hne : ∀ cols, m ≠ .composer ⟨.multiplicative, cols⟩) {file : Str} (hd : fs.createParentDirectories file = .ok fs1) :
    exportModel L fs m file = .error .illegalStateError := by
  unfold NothingToExport at hm
  split at hm
  · exact absurd rfl (hne _)
  · rename_i a b i l c
    rcases a with _ | a
    · simp only [exportModel, hd]; rfl
    · rcases b with _ | b
      · simp only [exportModel, hd]; rfl
      · simp at hm
  · unfold exportModel
    simp only [hd, hm]; rfl
  · exact hm.elim

example : NothingToExport (.composer ⟨.multiplicative, none⟩) ∧ NothingToExport (.composer ⟨.fullAdditive none none true none, none⟩) :=
  ⟨trivial, Or.inl rfl⟩

/-- The hypothesis of `C86_weighted_additive` is met by exporting into a directory that does not exist. -/
example {L : Lib} : ∃ fs', exportModel L fs0 (.composer ⟨.weighted 1 2, none⟩) cs!"m/x.params" = .ok fs' := by
  obtain ⟨fs', h, -⟩ := C62_save_partial fs0_ok (name := cs!"m/x.params")
    (content := paramText L.io cs!"alpha" 1 ++ ['\n'] ++ paramText L.io cs!"beta" 2)
    (by decide) (by decide) (by decide) (by decide) (by simp [fs0, Dict.empty, Dict.keys])
  exact ⟨fs', h⟩

/-! ### C91 -/

/-- A disk with the file `/m`, whose content is `old`. -/
def exFs1 : Fs := ⟨[], [[]], Dict.empty.set [cs!"m"] cs!"old"⟩

/-- **C91** refuted: whenever `save` succeeds, there is a moment at which the file is empty. So neither the old content, if
there was one, nor the new one is on the disk then. -/
theorem C91_refuted {fs fs' : Fs} {content name : Str} (h : fs.save content name = .ok fs') :
    ∃ g, (saveR fs content name).seen g ∧ g.read name = .ok [] := by
  unfold Fs.save at h
  rw [bind_eq_ok] at h
  obtain ⟨fs1, h1, h2⟩ := h
  have : ∃ g, fs1.write name [] = .ok g := by
    unfold Fs.write at h2 ⊢
    split at h2
    · cases h2
    · rename_i hn
      rw [if_neg hn]
      exact ⟨_, rfl⟩
  obtain ⟨g, hg⟩ := this
  exact ⟨g, Or.inr ⟨fs1, by rw [createParentR_out]; exact h1, Or.inr ⟨[], fun c _ => List.nil_prefix, hg⟩⟩,
    Fs.read_write_same hg⟩

/-- **C91** (the part that holds) At every moment of a `save` every other file is as before, and the file itself has its
old content, or a beginning of the new one; when the call returns it has the new one. Not proved, because false: that the
old content stays until the new one is complete. -/
theorem C91_save_partial {fs : Fs} {content name : Str} :
    (∀ g, (saveR fs content name).seen g →
      (g.read name = fs.read name ∨ ∃ t, t <+: content ∧ g.read name = .ok t) ∧
      ∀ p, fs.resolve p ≠ fs.resolve name → g.read p = fs.read p) ∧
    ∀ g, (saveR fs content name).out = .ok g → g.read name = .ok content := by
  constructor
  · intro g hg
    rcases hg with hg | ⟨fs1, h1, hg⟩
    · have hs := (CrashSafe.createParentR (C := fun _ _ => False) (O := fun _ => False) (p := name) (NoneBroken.refl fs)).seen g hg
      exact ⟨Or.inl (unchanged hs name), fun p _ => unchanged hs p⟩
    · rw [createParentR_out] at h1
      obtain ⟨e1, e2⟩ := Fs.createParent_files h1
      have hread : ∀ p, fs1.read p = fs.read p := fun p => read_congr e2 (by rw [e1])
      rcases hg with rfl | ⟨t, ht, hw⟩
      · exact ⟨Or.inl (hread name), fun p _ => hread p⟩
      · refine ⟨Or.inr ⟨t, ht content rfl, Fs.read_write_same hw⟩, fun p hp => ?_⟩
        obtain ⟨k1, -, -, k4⟩ := Fs.write_ok hw
        rw [← hread p]
        refine read_congr k1 ?_
        rw [k4, if_neg]
        rw [Fs.resolve_cwd e2, Fs.resolve_cwd e2]
        exact hp
  · intro g hg
    have hg : ((createParentR fs name).out.bind fun fs1 => (writeR fs1 name (.ok content)).out) = .ok g := hg
    obtain ⟨fs1, -, h2⟩ := except_bind_ok hg
    exact Fs.read_write_same (writeR_ok.1 h2)

/-- A concrete instance: a `save` over an existing file. -/
example : ∃ fs', exFs1.save cs!"new" cs!"/m" = .ok fs' ∧ exFs1.read cs!"/m" = .ok cs!"old" := by
  exact ⟨_, rfl, rfl⟩

end
end Dissect
