import Verif.Spec.Pipeline
import Verif.Lemmas.Fs
import Verif.Lemmas.FsDirs

/-! Lemmas: writing a sequence of spaces. -/

namespace Dissect
noncomputable section

/-- Save the pickled space, then export it. -/
def printJob (L : Lib) (fmt : Option Str) (j : Str × Space Str) (fs : Fs) : Py Fs := do
  let fs1 ← fs.save (L.dump (.space j.2)) (j.1 ++ cs!".pkl")
  exportOpt L fs1 j.2 j.1 fmt

/-- A sequence of jobs. -/
def runJobs (L : Lib) (fmt : Option Str) : List (Str × Space Str) → Fs → Py Fs
  | [], fs => .ok fs
  | j :: js, fs => do
    let fs' ← printJob L fmt j fs
    runJobs L fmt js fs'

theorem printSpace_eq (L : Lib) (s : Space Str) (outDir : Str) (ops : List (Option Str)) (fmt : Option Str) (fs : Fs) :
    printSpace L s outDir ops fmt fs = printJob L fmt (spaceFile outDir ops, s) fs := rfl

theorem runJobs_append (L : Lib) (fmt : Option Str) (a b : List (Str × Space Str)) : ∀ fs,
    runJobs L fmt (a ++ b) fs = runJobs L fmt a fs >>= runJobs L fmt b := by
  induction a with
  | nil => intro fs; rfl
  | cons j js ih =>
    intro fs
    simp only [List.cons_append, runJobs]
    cases printJob L fmt j fs with
    | error e => rfl
    | ok fs1 => simp only [ok_bind]; exact ih fs1

/-- A file extension. -/
def IsExt (e : Str) : Prop := e ≠ [] ∧ '/' ∉ e ∧ '.' ∉ e

theorem isExt_of_mem {e : Str} (h : e ∈ outExts) : IsExt e := by
  simp only [outExts, List.mem_cons, List.not_mem_nil, or_false] at h
  rcases h with rfl | rfl | rfl | rfl | rfl <;> (unfold IsExt; decide)

/-- Two prefixes that name the same files. -/
def SameNode (fs : Fs) (f g : Str) : Prop := ∀ e, IsExt e → fs.resolve (f ++ ['.'] ++ e) = fs.resolve (g ++ ['.'] ++ e)

theorem dot_split {a b e e' : Str} (h1 : '.' ∉ e) (h2 : '.' ∉ e') (h : a ++ ['.'] ++ e = b ++ ['.'] ++ e') :
    a = b ∧ e = e' := by
  have hr := congrArg List.reverse h
  simp only [List.reverse_append, List.reverse_singleton, List.append_assoc] at hr
  have key : ∀ (x y u v : Str), '.' ∉ x → '.' ∉ y → x ++ ('.' :: u) = y ++ ('.' :: v) → x = y ∧ u = v := by
    intro x
    induction x with
    | nil =>
      intro y u v _ hy h
      cases y with
      | nil => simpa using h
      | cons c cs =>
        simp only [List.nil_append, List.cons_append, List.cons.injEq] at h
        exact absurd (by rw [← h.1]; simp) hy
    | cons c cs ih =>
      intro y u v hx hy h
      cases y with
      | nil =>
        simp only [List.nil_append, List.cons_append, List.cons.injEq] at h
        exact absurd (by rw [h.1]; simp) hx
      | cons d ds =>
        simp only [List.cons_append, List.cons.injEq] at h
        obtain ⟨h3, h4⟩ := ih ds u v (fun hm => hx (List.mem_cons_of_mem _ hm)) (fun hm => hy (List.mem_cons_of_mem _ hm)) h.2
        exact ⟨by rw [h.1, h3], h4⟩
  have := key e.reverse e'.reverse a.reverse b.reverse (by simpa using h1) (by simpa using h2) (by simpa using hr)
  exact ⟨List.reverse_injective this.2, List.reverse_injective this.1⟩

theorem resolve_ext_eq {fs : Fs} {f g e e' : Str} (he : IsExt e) (he' : IsExt e')
    (h : fs.resolve (f ++ ['.'] ++ e) = fs.resolve (g ++ ['.'] ++ e')) : e = e' ∧ SameNode fs f g := by
  obtain ⟨i1, l1, h1⟩ := Fs.resolve_ext fs f
  obtain ⟨i2, l2, h2⟩ := Fs.resolve_ext fs g
  rw [h1 e he.1 he.2.1, h2 e' he'.1 he'.2.1] at h
  obtain ⟨h3, h4⟩ := List.append_inj' h rfl
  injection h4 with h4
  obtain ⟨h5, h6⟩ := dot_split he.2.2 he'.2.2 h4
  refine ⟨h6, fun x hx => ?_⟩
  rw [h1 x hx.1 hx.2.1, h2 x hx.1 hx.2.1, h3, h5]

theorem SameNode.cwd {fs fs' : Fs} (hc : fs'.cwd = fs.cwd) {f g : Str} (h : SameNode fs f g) : SameNode fs' f g := by
  intro e he
  rw [Fs.resolve_cwd hc, Fs.resolve_cwd hc]
  exact h e he

theorem write_frame {fs fs' : Fs} {f e c : Str} (h : fs.write (f ++ ['.'] ++ e) c = .ok fs') (he : e ∈ outExts) :
    fs'.cwd = fs.cwd ∧ ∀ x, (∀ e ∈ outExts, x ≠ fs.resolve (f ++ ['.'] ++ e)) → fs'.files.get? x = fs.files.get? x := by
  obtain ⟨h1, _, _, h4⟩ := Fs.write_ok h
  refine ⟨h1, fun x hx => ?_⟩
  rw [h4, if_neg (hx e he)]

theorem exportMatrix_frame {io : NumIO} {fs fs' : Fs} {s : Space Str} {st : Csr ℝ} {f : Str} {fmt : Option Str}
    (h : exportMatrix io fs s st f fmt = .ok fs') :
    fs'.cwd = fs.cwd ∧ ∀ x, (∀ e ∈ outExts, x ≠ fs.resolve (f ++ ['.'] ++ e)) → fs'.files.get? x = fs.files.get? x := by
  unfold exportMatrix at h
  cases fmt with
  | none => injection h with h; subst h; exact ⟨rfl, fun _ _ => rfl⟩
  | some g =>
    simp only [] at h
    split at h
    · obtain ⟨txt, _, h⟩ := Fs.writeText_ok.1 h
      exact write_frame h (by decide)
    · split at h
      · split at h
        · cases h
        · obtain ⟨txt, _, h⟩ := Fs.writeText_ok.1 h
          exact write_frame h (by decide)
      · cases h

theorem exportCols_frame {fs fs' : Fs} {s : Space Str} {f : Str} (h : exportCols fs s f = .ok fs') :
    fs'.cwd = fs.cwd ∧ ∀ x, (∀ e ∈ outExts, x ≠ fs.resolve (f ++ ['.'] ++ e)) → fs'.files.get? x = fs.files.get? x := by
  unfold exportCols at h
  split at h
  · exact write_frame h (by decide)
  · injection h with h; subst h; exact ⟨rfl, fun _ _ => rfl⟩

/-- Composition of frame conditions. -/
theorem frame_trans {fs fs1 fs2 : Fs} {f : Str}
    (h1 : fs1.cwd = fs.cwd ∧ ∀ x, (∀ e ∈ outExts, x ≠ fs.resolve (f ++ ['.'] ++ e)) → fs1.files.get? x = fs.files.get? x)
    (h2 : fs2.cwd = fs1.cwd ∧ ∀ x, (∀ e ∈ outExts, x ≠ fs1.resolve (f ++ ['.'] ++ e)) →
      fs2.files.get? x = fs1.files.get? x) :
    fs2.cwd = fs.cwd ∧ ∀ x, (∀ e ∈ outExts, x ≠ fs.resolve (f ++ ['.'] ++ e)) → fs2.files.get? x = fs.files.get? x := by
  refine ⟨h2.1.trans h1.1, fun x hx => ?_⟩
  rw [h2.2 x (fun e he => by rw [Fs.resolve_cwd h1.1]; exact hx e he), h1.2 x hx]

theorem export_frame {io : NumIO} {fs fs' : Fs} {s : Space Str} {st : Csr ℝ} {f : Str} {fmt : Option Str}
    (h : s.export io fs st f fmt = .ok fs') :
    fs'.cwd = fs.cwd ∧ ∀ x, (∀ e ∈ outExts, x ≠ fs.resolve (f ++ ['.'] ++ e)) → fs'.files.get? x = fs.files.get? x := by
  simp only [Space.export, bind_eq_ok, exportRowColumn] at h
  obtain ⟨fs1, h1, fs2, h2, fs3, h3, h4⟩ := h
  have g1 := Fs.createParent_files h1
  have f1 : fs1.cwd = fs.cwd ∧ ∀ x, (∀ e ∈ outExts, x ≠ fs.resolve (f ++ ['.'] ++ e)) →
      fs1.files.get? x = fs.files.get? x := ⟨g1.2, fun x _ => by rw [g1.1]⟩
  exact frame_trans (frame_trans (frame_trans f1 (exportMatrix_frame h2)) (exportCols_frame h3))
    (write_frame h4 (by decide))

theorem exportOpt_frame {L : Lib} {fs fs' : Fs} {s : Space Str} {f : Str} {fmt : Option Str}
    (h : exportOpt L fs s f fmt = .ok fs') :
    fs'.cwd = fs.cwd ∧ ∀ x, (∀ e ∈ outExts, x ≠ fs.resolve (f ++ ['.'] ++ e)) → fs'.files.get? x = fs.files.get? x := by
  cases fmt with
  | none =>
    have h' : (.ok fs : Py Fs) = .ok fs' := h
    injection h' with h'; subst h'; exact ⟨rfl, fun _ _ => rfl⟩
  | some g => exact export_frame (show s.export L.io fs (L.csr s.mat) f (some g) = .ok fs' from h)

theorem save_ok {fs fs' : Fs} {c f : Str} (h : fs.save c f = .ok fs') :
    fs'.cwd = fs.cwd ∧ fs'.read f = .ok c ∧
      ∀ x, fs'.files.get? x = if x = fs.resolve f then some c else fs.files.get? x := by
  simp only [Fs.save, bind_eq_ok] at h
  obtain ⟨fs1, h1, h2⟩ := h
  have g1 := Fs.createParent_files h1
  obtain ⟨a, _, _, b⟩ := Fs.write_ok h2
  refine ⟨a.trans g1.2, Fs.read_write_same h2, fun x => ?_⟩
  rw [b, Fs.resolve_cwd g1.2, g1.1]

theorem read_congr {fs fs' : Fs} {p : Str} (hc : fs'.cwd = fs.cwd)
    (h : fs'.files.get? (fs.resolve p) = fs.files.get? (fs.resolve p)) : fs'.read p = fs.read p := by
  unfold Fs.read
  rw [Fs.resolve_cwd hc, h]

theorem isExt_pkl : IsExt cs!"pkl" := by unfold IsExt; decide

theorem pkl_eq (f : Str) : f ++ cs!".pkl" = f ++ ['.'] ++ cs!"pkl" := by simp

theorem printJob_frame {L : Lib} {fmt : Option Str} {j : Str × Space Str} {fs fs' : Fs}
    (h : printJob L fmt j fs = .ok fs') :
    fs'.cwd = fs.cwd ∧ ∀ x, (∀ e ∈ outExts, x ≠ fs.resolve (j.1 ++ ['.'] ++ e)) →
      fs'.files.get? x = fs.files.get? x := by
  simp only [printJob, bind_eq_ok] at h
  obtain ⟨fs1, h1, h2⟩ := h
  obtain ⟨a, _, b⟩ := save_ok h1
  refine frame_trans ⟨a, fun x hx => ?_⟩ (exportOpt_frame h2)
  rw [b, if_neg]
  have := hx cs!"pkl" (by decide)
  rwa [pkl_eq]

/-- The files that export writes are not the pickle. -/
theorem export_pkl {io : NumIO} {fs fs' : Fs} {s : Space Str} {st : Csr ℝ} {f : Str} {fmt : Option Str}
    (h : s.export io fs st f fmt = .ok fs') :
    fs'.files.get? (fs.resolve (f ++ cs!".pkl")) = fs.files.get? (fs.resolve (f ++ cs!".pkl")) := by
  have hw : ∀ {fs fs' : Fs} {e c : Str}, fs.write (f ++ ['.'] ++ e) c = .ok fs' → e ≠ cs!"pkl" → IsExt e →
      fs'.cwd = fs.cwd ∧ fs'.files.get? (fs.resolve (f ++ cs!".pkl")) = fs.files.get? (fs.resolve (f ++ cs!".pkl")) := by
    intro fs fs' e c h hne he
    obtain ⟨h1, _, _, h4⟩ := Fs.write_ok h
    refine ⟨h1, ?_⟩
    rw [h4, if_neg]
    intro heq
    rw [pkl_eq] at heq
    exact hne (resolve_ext_eq isExt_pkl he heq).1.symm
  simp only [Space.export, bind_eq_ok, exportRowColumn] at h
  obtain ⟨fs1, h1, fs2, h2, fs3, h3, h4⟩ := h
  have g1 := Fs.createParent_files h1
  have g2 : fs2.cwd = fs1.cwd ∧ fs2.files.get? (fs1.resolve (f ++ cs!".pkl")) = fs1.files.get? (fs1.resolve (f ++ cs!".pkl")) := by
    unfold exportMatrix at h2
    cases fmt with
    | none => injection h2 with h2; subst h2; exact ⟨rfl, rfl⟩
    | some g =>
      simp only [] at h2
      split at h2
      · obtain ⟨txt, _, h2⟩ := Fs.writeText_ok.1 h2
        exact hw h2 (by unfold fmtDm; decide) (by unfold IsExt fmtDm; decide)
      · split at h2
        · split at h2
          · cases h2
          · obtain ⟨txt, _, h2⟩ := Fs.writeText_ok.1 h2
            exact hw h2 (by unfold fmtSm; decide) (by unfold IsExt fmtSm; decide)
        · cases h2
  have g3 : fs3.cwd = fs2.cwd ∧ fs3.files.get? (fs2.resolve (f ++ cs!".pkl")) = fs2.files.get? (fs2.resolve (f ++ cs!".pkl")) := by
    unfold exportCols at h3
    split at h3
    · exact hw h3 (by decide) (by unfold IsExt; decide)
    · injection h3 with h3; subst h3; exact ⟨rfl, rfl⟩
  have g4 := hw h4 (by decide) (by unfold IsExt; decide)
  have r1 := Fs.resolve_cwd g1.2 (f ++ cs!".pkl")
  have r2 := Fs.resolve_cwd g2.1 (f ++ cs!".pkl")
  have r3 := Fs.resolve_cwd g3.1 (f ++ cs!".pkl")
  have e4 := g4.2
  rw [r3, g3.2, r2, g2.2, r1, g1.1] at e4
  exact e4

theorem printJob_pkl {L : Lib} {fmt : Option Str} {j : Str × Space Str} {fs fs' : Fs}
    (h : printJob L fmt j fs = .ok fs') : fs'.read (j.1 ++ cs!".pkl") = .ok (L.dump (.space j.2)) := by
  have hc := (printJob_frame h).1
  simp only [printJob, bind_eq_ok] at h
  obtain ⟨fs1, h1, h2⟩ := h
  obtain ⟨a, b, c⟩ := save_ok h1
  have hx := exportOpt_frame h2
  have hk : fs'.files.get? (fs1.resolve (j.1 ++ cs!".pkl")) = some (L.dump (.space j.2)) := by
    have hk1 : fs1.files.get? (fs1.resolve (j.1 ++ cs!".pkl")) = some (L.dump (.space j.2)) := by
      rw [c, Fs.resolve_cwd a, if_pos rfl]
    cases fmt with
    | none =>
      have h' : (.ok fs1 : Py Fs) = .ok fs' := h2
      injection h' with h'; subst h'; exact hk1
    | some g =>
      rw [export_pkl (show j.2.export L.io fs1 (L.csr j.2.mat) j.1 (some g) = .ok fs' from h2)]
      exact hk1
  refine Fs.read_eq (by simp) ?_
  rw [Fs.resolve_cwd hx.1]
  exact hk

/-- After a sequence of jobs: every job's files hold what the last job with the same name wrote, and all other files are
unchanged. -/
theorem runJobs_spec {L : Lib} {fmt : Option Str} (js : List (Str × Space Str)) : ∀ {fs fs' : Fs},
    runJobs L fmt js fs = .ok fs' →
    fs'.cwd = fs.cwd ∧
    (∀ x, (∀ j ∈ js, ∀ e ∈ outExts, x ≠ fs.resolve (j.1 ++ ['.'] ++ e)) → fs'.files.get? x = fs.files.get? x) ∧
    ∀ j ∈ js, ∃ j' ∈ js, SameNode fs j.1 j'.1 ∧ ∃ fs0 fs1, printJob L fmt j' fs0 = .ok fs1 ∧ fs0.cwd = fs.cwd ∧
      ∀ e, IsExt e → fs'.files.get? (fs.resolve (j.1 ++ ['.'] ++ e)) = fs1.files.get? (fs.resolve (j.1 ++ ['.'] ++ e)) := by
  induction js using List.reverseRecOn with
  | nil =>
    intro fs fs' h
    injection h with h; subst h
    exact ⟨rfl, fun _ _ => rfl, fun j hj => by cases hj⟩
  | append_singleton js k ih =>
    intro fs fs' h
    rw [runJobs_append, bind_eq_ok] at h
    obtain ⟨fs1, h1, h2⟩ := h
    have h2' : printJob L fmt k fs1 = .ok fs' := by
      simp only [runJobs, bind_eq_ok] at h2
      obtain ⟨fs2, h2, h3⟩ := h2
      injection h3 with h3; subst h3; exact h2
    obtain ⟨a1, a2, a3⟩ := ih h1
    obtain ⟨b1, b2⟩ := printJob_frame h2'
    refine ⟨b1.trans a1, fun x hx => ?_, fun j hj => ?_⟩
    · rw [b2 x (fun e he => by rw [Fs.resolve_cwd a1]; exact hx k (by simp) e he)]
      exact a2 x (fun j hj e he => hx j (by simp [hj]) e he)
    · by_cases hs : SameNode fs j.1 k.1
      · exact ⟨k, by simp, hs, fs1, fs', h2', a1, fun e he => rfl⟩
      · have hj' : j ∈ js := by
          rcases List.mem_append.1 hj with h | h
          · exact h
          · simp only [List.mem_singleton] at h
            subst h
            exact absurd (fun e _ => rfl) hs
        obtain ⟨j', hm, hn, g0, g1, hp, hc, hg⟩ := a3 j hj'
        refine ⟨j', by simp [hm], hn, g0, g1, hp, hc, fun e he => ?_⟩
        rw [← hg e he]
        apply b2
        intro e' he' heq
        rw [Fs.resolve_cwd a1] at heq
        exact hs (resolve_ext_eq he (isExt_of_mem he') heq).2

end
end Dissect
