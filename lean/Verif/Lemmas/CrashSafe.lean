import Verif.Lemmas.Crash
import Verif.Spec.Crash

/-! Lemmas: crash safety is compositional. -/

namespace Dissect
noncomputable section
variable {ε : Type} {fs0 : Fs} {C : List Str → Str → Prop} {O : List Str → Prop}

theorem except_bind_ok {α β : Type} {x : Except ε α} {k : α → Except ε β} {b : β} (h : x >>= k = .ok b) :
    ∃ a, x = .ok a ∧ k a = .ok b := by
  cases x with
  | error e => cases h
  | ok a => exact ⟨a, rfl, h⟩

/-- Every intermediate disk has at most one broken file; the final one has none. -/
structure CrashSafe (fs0 : Fs) (C : List Str → Str → Prop) (O : List Str → Prop) (r : Run ε) : Prop where
  seen : ∀ g, r.seen g → OneBroken fs0 g C O
  out : ∀ g, r.out = .ok g → NoneBroken fs0 g C

theorem NoneBroken.one {g : Fs} (h : NoneBroken fs0 g C) : OneBroken fs0 g C O :=
  ⟨h.cwd, h.dirs, [], fun n => by rcases h.files n with h | h <;> simp [h]⟩

theorem NoneBroken.refl (fs : Fs) : NoneBroken fs fs C := ⟨rfl, fun _ h => h, fun _ => Or.inl rfl⟩

namespace CrashSafe

theorem done {fs : Fs} (h : NoneBroken fs0 fs C) : CrashSafe fs0 C O (Run.done fs : Run ε) :=
  ⟨fun g hg => by cases hg; exact h.one, fun g hg => by cases hg; exact h⟩

theorem fail {fs : Fs} {e : ε} (h : NoneBroken fs0 fs C) : CrashSafe fs0 C O (Run.fail fs e) :=
  ⟨fun g hg => by cases hg; exact h.one, fun g hg => by cases hg⟩

theorem andThen {r : Run ε} {k : Fs → Run ε} (hr : CrashSafe fs0 C O r)
    (hk : ∀ fs, r.out = .ok fs → NoneBroken fs0 fs C → CrashSafe fs0 C O (k fs)) : CrashSafe fs0 C O (r.andThen k) := by
  constructor
  · rintro g (hg | ⟨fs', h1, h2⟩)
    · exact hr.seen g hg
    · exact (hk fs' h1 (hr.out _ h1)).seen g h2
  · intro g hg
    rw [Run.andThen_out] at hg
    obtain ⟨fs', h1, h2⟩ := except_bind_ok hg
    exact (hk fs' h1 (hr.out _ h1)).out g h2

theorem compute {α : Type} {fs : Fs} {x : Except ε α} {k : α → Run ε} (h : NoneBroken fs0 fs C)
    (hk : ∀ a, x = .ok a → CrashSafe fs0 C O (k a)) : CrashSafe fs0 C O (Run.compute fs x k) := by
  constructor
  · rintro g (hg | ⟨a, h1, h2⟩)
    · subst hg; exact h.one
    · exact (hk a h1).seen g h2
  · intro g hg
    rw [Run.compute_out] at hg
    obtain ⟨a, h1, h2⟩ := except_bind_ok hg
    exact (hk a h1).out g h2

theorem lift {r : Run PyErr} (h : CrashSafe fs0 C O r) : CrashSafe fs0 C O r.lift :=
  ⟨h.seen, fun g hg => h.out g (lift_ok.1 hg)⟩

theorem mkdirR {fs : Fs} {p : Str} (h : NoneBroken fs0 fs C) : CrashSafe fs0 C O (mkdirR fs p) := by
  have key : ∀ g, fs.mkdir p = .ok g → NoneBroken fs0 g C := by
    intro g hg
    obtain ⟨h1, h2⟩ := Fs.mkdir_files hg
    refine ⟨h2.trans h.cwd, fun d hd => ?_, fun n => by rw [h1]; exact h.files n⟩
    unfold Fs.mkdir at hg
    split at hg
    · cases hg
    · injection hg with hg
      subst hg
      exact List.mem_cons_of_mem _ (h.dirs d hd)
  constructor
  · rintro g (rfl | hg)
    · exact h.one
    · exact (key g hg).one
  · exact key

theorem makedirsR (name : Str) : ∀ {fs : Fs}, NoneBroken fs0 fs C → CrashSafe fs0 C O (makedirsR fs name) := by
  induction hn : name.length using Nat.strong_induction_on generalizing name with
  | _ n ih =>
    intro fs h
    unfold Dissect.makedirsR
    split
    · rename_i hc
      refine andThen (ih _ (by rw [← hn]; exact Fs.makedirsSplit_lt name hc.2.1) _ rfl h) (fun fs' _ h' => ?_)
      split
      · exact done h'
      · exact mkdirR h'
    · exact mkdirR h

theorem createParentR {fs : Fs} {p : Str} (h : NoneBroken fs0 fs C) : CrashSafe fs0 C O (createParentR fs p) := by
  unfold Dissect.createParentR
  split
  · exact done h
  · exact makedirsR _ h

theorem writeR {fs : Fs} {p : Str} {txt : Py Str} (h : NoneBroken fs0 fs C) (ho : O (fs0.resolve p))
    (hc : ∀ c, txt = .ok c → C (fs0.resolve p) c) : CrashSafe fs0 C O (writeR fs p txt) := by
  have hr : fs.resolve p = fs0.resolve p := Fs.resolve_cwd h.cwd p
  have hdirs : ∀ {t : Str} {g : Fs}, fs.write p t = .ok g → ∀ d ∈ fs0.dirs, d ∈ g.dirs := by
    intro t g hg d hd
    have := (Fs.write_ok hg).2.1
    rw [this]
    exact h.dirs d hd
  constructor
  · rintro g (rfl | ⟨t, _, hg⟩)
    · exact h.one
    · obtain ⟨h1, _, _, h4⟩ := Fs.write_ok hg
      refine ⟨h1.trans h.cwd, hdirs hg, fs0.resolve p, fun n => ?_⟩
      rw [h4]
      split
      · rename_i hn
        right; right
        rw [hn, hr]
        exact ⟨rfl, ho⟩
      · rcases h.files n with h | h
        · exact Or.inl h
        · exact Or.inr (Or.inl h)
  · intro g hg
    rw [writeR_out] at hg
    obtain ⟨c, h1, hg⟩ := Fs.writeText_ok.1 hg
    obtain ⟨h2, _, _, h4⟩ := Fs.write_ok hg
    refine ⟨h2.trans h.cwd, hdirs hg, fun n => ?_⟩
    rw [h4]
    split
    · rename_i hn
      right
      exact ⟨c, by rw [hn, hr]; exact hc c h1, rfl⟩
    · exact h.files n

/-- Only the file `q` may be broken. -/
structure _root_.Dissect.BrokenAt (fs0 g : Fs) (C : List Str → Str → Prop) (q : List Str) : Prop where
  cwd : g.cwd = fs0.cwd
  dirs : ∀ d ∈ fs0.dirs, d ∈ g.dirs
  files : ∀ n, n ≠ q → g.files.get? n = fs0.files.get? n ∨ ∃ c, C n c ∧ g.files.get? n = some c

theorem _root_.Dissect.NoneBroken.at {g : Fs} (h : NoneBroken fs0 g C) (q : List Str) : BrokenAt fs0 g C q :=
  ⟨h.cwd, h.dirs, fun n _ => h.files n⟩

theorem _root_.Dissect.BrokenAt.one {g : Fs} {q : List Str} (h : BrokenAt fs0 g C q) (ho : O q) : OneBroken fs0 g C O :=
  ⟨h.cwd, h.dirs, q, fun n => by
    by_cases hn : n = q
    · exact Or.inr (Or.inr ⟨hn, hn ▸ ho⟩)
    · rcases h.files n hn with h | h <;> simp [h]⟩

theorem _root_.Dissect.BrokenAt.write {fs g : Fs} {p t : Str} (h : BrokenAt fs0 fs C (fs0.resolve p))
    (hw : fs.write p t = .ok g) : BrokenAt fs0 g C (fs0.resolve p) := by
  have hr : fs.resolve p = fs0.resolve p := Fs.resolve_cwd h.cwd p
  obtain ⟨h1, h2, _, h4⟩ := Fs.write_ok hw
  refine ⟨h1.trans h.cwd, by rw [h2]; exact h.dirs, fun n hn => ?_⟩
  rw [h4, if_neg (by rw [hr]; exact hn)]
  exact h.files n hn

/-- A file is truncated, something is computed, and the file is written. -/
theorem truncThenWrite {α : Type} {fs : Fs} {p : Str} {x : Fs → Py α} {txt : α → Py Str} (h : NoneBroken fs0 fs C)
    (ho : O (fs0.resolve p))
    (hc : ∀ fs2 a c, BrokenAt fs0 fs2 C (fs0.resolve p) → x fs2 = .ok a → txt a = .ok c → C (fs0.resolve p) c) :
    CrashSafe fs0 C O ((Dissect.writeR fs p (.ok [])).andThen (fun fs2 => Run.compute fs2 (x fs2) (fun a =>
      Dissect.writeR fs2 p (txt a)))) := by
  have hb : ∀ {t : Str} {g : Fs}, fs.write p t = .ok g → BrokenAt fs0 g C (fs0.resolve p) := fun hg => (h.at _).write hg
  constructor
  · rintro g ((rfl | ⟨t, _, hg⟩) | ⟨fs2, h2, h3⟩)
    · exact h.one
    · exact (hb hg).one ho
    · have h2' : fs.write p [] = .ok fs2 := (Fs.writeText_of_ok _ _ _).symm.trans h2
      rcases h3 with rfl | ⟨a, _, rfl | ⟨t, _, hg⟩⟩
      · exact (hb h2').one ho
      · exact (hb h2').one ho
      · exact ((hb h2').write hg).one ho
  · intro g hg
    rw [Run.andThen_out] at hg
    obtain ⟨fs2, h2, hg⟩ := except_bind_ok hg
    have h2' : fs.write p [] = .ok fs2 := (Fs.writeText_of_ok _ _ _).symm.trans h2
    rw [Run.compute_out] at hg
    obtain ⟨a, h3, hg⟩ := except_bind_ok hg
    rw [writeR_out] at hg
    obtain ⟨c, h4, hg⟩ := Fs.writeText_ok.1 hg
    have b2 := hb h2'
    have b3 := b2.write hg
    refine ⟨b3.cwd, b3.dirs, fun n => ?_⟩
    by_cases hn : n = fs0.resolve p
    · subst hn
      right
      refine ⟨c, hc fs2 a c b2 h3 h4, ?_⟩
      rw [(Fs.write_ok hg).2.2.2, if_pos (Fs.resolve_cwd b2.cwd p).symm]
    · exact b3.files n hn

theorem saveR {fs : Fs} {p c : Str} (h : NoneBroken fs0 fs C) (ho : O (fs0.resolve p)) (hc : C (fs0.resolve p) c) :
    CrashSafe fs0 C O (saveR fs c p) :=
  andThen (createParentR h) (fun _ _ h' => writeR h' ho (fun c' hc' => by cases hc'; exact hc))

theorem forR {α : Type} {f : ℕ → α → Fs → Run PyErr} (l : List α) : ∀ (i : ℕ) {fs : Fs}, NoneBroken fs0 fs C →
    (∀ i, ∀ x ∈ l, ∀ fs, NoneBroken fs0 fs C → CrashSafe fs0 C O (f i x fs)) → CrashSafe fs0 C O (forR f i l fs) := by
  induction l with
  | nil => intro i fs h _; exact done h
  | cons x xs ih =>
    intro i fs h hf
    exact andThen (hf i x (List.mem_cons_self ..) fs h)
      (fun fs' _ h' => ih (i + 1) h' (fun j y hy => hf j y (List.mem_cons_of_mem _ hy)))

theorem mono {C' : List Str → Str → Prop} {O' : List Str → Prop} {r : Run ε} (h : CrashSafe fs0 C O r)
    (hC : ∀ n c, C n c → C' n c) (hO : ∀ n, O n → O' n) : CrashSafe fs0 C' O' r := by
  constructor
  · intro g hg
    obtain ⟨a, b, q, d⟩ := h.seen g hg
    refine ⟨a, b, q, fun n => ?_⟩
    rcases d n with h | ⟨c, h1, h2⟩ | ⟨h1, h2⟩
    · exact Or.inl h
    · exact Or.inr (Or.inl ⟨c, hC _ _ h1, h2⟩)
    · exact Or.inr (Or.inr ⟨h1, hO _ h2⟩)
  · intro g hg
    obtain ⟨a, b, d⟩ := h.out g hg
    refine ⟨a, b, fun n => ?_⟩
    rcases d n with h | ⟨c, h1, h2⟩
    · exact Or.inl h
    · exact Or.inr ⟨c, hC _ _ h1, h2⟩

theorem exportMatrixR {L : Lib} {fs : Fs} {s : Space Str} {f : Str} {fmt : Option Str} (h : NoneBroken fs0 fs C)
    (ho : ∀ n, FileOf fs0 f n → O n) (hc : ∀ n c, CompleteFile L fs0 f s n c → C n c) :
    CrashSafe fs0 C O (exportMatrixR L.io fs s (L.csr s.mat) f fmt) := by
  unfold Dissect.exportMatrixR
  cases fmt with
  | none => exact done h
  | some g =>
    simp only []
    split
    · exact writeR h (ho _ ⟨cs!"dm", by decide, rfl⟩) (fun c hc' => hc _ _ ⟨cs!"dm", rfl, .dm hc'⟩)
    · split
      · split
        · exact fail h
        · exact writeR h (ho _ ⟨cs!"sm", by decide, rfl⟩) (fun c hc' => hc _ _ ⟨cs!"sm", rfl, .sm hc'⟩)
      · exact fail h

theorem exportR {L : Lib} {fs : Fs} {s : Space Str} {f : Str} {fmt : Option Str} (h : NoneBroken fs0 fs C)
    (ho : ∀ n, FileOf fs0 f n → O n) (hc : ∀ n c, CompleteFile L fs0 f s n c → C n c) :
    CrashSafe fs0 C O (exportR L.io fs s (L.csr s.mat) f fmt) := by
  refine andThen (createParentR h) (fun fs1 _ h1 => andThen (exportMatrixR h1 ho hc) (fun fs2 _ h2 => ?_))
  unfold exportRowColumnR
  refine andThen ?_ (fun fs3 _ h3 => ?_)
  · split
    · exact writeR h2 (ho _ ⟨cs!"cols", by decide, rfl⟩) (fun c hc' => by cases hc'; exact hc _ _ ⟨cs!"cols", rfl, .cols⟩)
    · exact done h2
  · exact writeR h3 (ho _ ⟨cs!"rows", by decide, rfl⟩) (fun c hc' => by cases hc'; exact hc _ _ ⟨cs!"rows", rfl, .rows⟩)

theorem printR {L : Lib} {fs : Fs} {s : Space Str} {f : Str} {fmt : Option Str} (h : NoneBroken fs0 fs C)
    (ho : ∀ n, FileOf fs0 f n → O n) (hc : ∀ n c, CompleteFile L fs0 f s n c → C n c) :
    CrashSafe fs0 C O (printR L fs s f fmt) := by
  refine andThen (saveR h ?_ ?_) (fun fs1 _ h1 => ?_)
  · exact ho _ ⟨cs!"pkl", by decide, by rw [pkl_eq]⟩
  · exact hc _ _ ⟨cs!"pkl", by rw [pkl_eq], .pkl⟩
  · unfold exportOptR
    cases fmt with
    | none => exact done h1
    | some g => exact exportR h1 ho hc

end CrashSafe
end
end Dissect
