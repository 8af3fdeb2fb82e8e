import Verif.Lemmas.Crash
import Verif.Props.SimsTotal

/-!
# Loading checks the file and its type (C128)
-/

namespace Dissect
noncomputable section

/-! ### Specification -/

/-- The file `f` holds the pickled object `x`. -/
def HoldsObj (L : Lib) (fs : Fs) (f : Str) (x : PyObj) : Prop :=
  f ≠ [] ∧ ∃ txt, fs.files.get? (fs.resolve f) = some txt ∧ L.undump txt = some x

/-- Objects of class `Space` (peripheral spaces included). -/
def PyObj.IsSpace (x : PyObj) : Prop := ∃ s, x = .space s

/-- Objects of class `CompositionModel`. -/
def PyObj.IsModel (x : PyObj) : Prop := (∃ c, x = .composer c) ∨ ∃ m, x = .lexfun m

/-- Why a file cannot be loaded as an object of the kind `P`: it does not exist (`IOError`), or it holds an object of
another kind (`TypeError`). -/
inductive Unloadable (L : Lib) (fs : Fs) (P : PyObj → Prop) (f : Str) : PyErr → Prop
  | missing : (f = [] ∨ fs.files.get? (fs.resolve f) = none) → Unloadable L fs P f .ioError
  | wrong {x : PyObj} : HoldsObj L fs f x → ¬ P x → Unloadable L fs P f .typeError

/-- The code stops with the exception `e` and the disk is never changed. -/
def Refused (r : Run PyErr) (fs : Fs) (e : PyErr) : Prop := r.out = .error e ∧ ∀ g, r.seen g → g = fs

/-! ### `io_utils.load` -/

theorem read_holds {fs : Fs} {f txt : Str} (h0 : f ≠ []) (h : fs.files.get? (fs.resolve f) = some txt) :
    fs.read f = .ok txt := by
  unfold Fs.read
  rw [if_neg h0, h]

theorem read_missing {fs : Fs} {f : Str} (h : f = [] ∨ fs.files.get? (fs.resolve f) = none) :
    fs.read f = .error .ioError := by
  unfold Fs.read
  rcases h with h | h
  · rw [if_pos h]
  · rw [h]; split <;> rfl

/-- **C128** `io_utils.load(f, T)`: a missing file raises `IOError`; a pickled object is returned when it is an instance
of `T` (or no `T` is given), otherwise `TypeError` is raised. -/
theorem C128_load {α : Type} (undump : Str → Option α) (T : Option (α → Bool)) (fs : Fs) (f : Str) :
    ((f = [] ∨ fs.files.get? (fs.resolve f) = none) → Fs.load undump T fs f = .error .ioError) ∧
    (∀ txt x, f ≠ [] → fs.files.get? (fs.resolve f) = some txt → undump txt = some x →
      (Fs.load undump T fs f = .ok x ↔ ∀ p, T = some p → p x = true) ∧
      (Fs.load undump T fs f = .error .typeError ↔ ∃ p, T = some p ∧ p x = false)) := by
  constructor
  · intro h
    unfold Fs.load
    rw [read_missing h]; rfl
  · intro txt x h0 h1 h2
    have e : Fs.load undump T fs f = (match T with
        | none => .ok x
        | some p => if p x then .ok x else .error .typeError) := by
      unfold Fs.load
      rw [read_holds h0 h1, ok_bind]
      rw [h2]
      cases T <;> rfl
    rw [e]
    cases T with
    | none => simp
    | some p => cases hp : p x <;> simp [hp]

/-- **C128** loading as a space. -/
theorem C128_space (L : Lib) (fs : Fs) (f : Str) :
    (∀ s, HoldsObj L fs f (.space s) → loadSpace L fs f = .ok s) ∧
    (∀ e, Unloadable L fs PyObj.IsSpace f e → loadSpace L fs f = .error e) := by
  constructor
  · rintro s ⟨h0, txt, h1, h2⟩
    unfold loadSpace Fs.load
    rw [read_holds h0 h1, ok_bind, h2]; rfl
  · rintro e (h | ⟨⟨h0, txt, h1, h2⟩, hn⟩)
    · unfold loadSpace Fs.load
      rw [read_missing h]; rfl
    · unfold loadSpace Fs.load
      rw [read_holds h0 h1, ok_bind, h2]
      cases ‹PyObj› with
      | space s => exact absurd ⟨s, rfl⟩ hn
      | composer c => rfl
      | lexfun m => rfl
      | other n => rfl

/-- **C128** loading as a composition model. -/
theorem C128_model (L : Lib) (fs : Fs) (f : Str) :
    (∀ x, x.IsModel → HoldsObj L fs f x → loadModel L fs f = .ok x) ∧
    (∀ e, Unloadable L fs PyObj.IsModel f e → loadModel L fs f = .error e) := by
  constructor
  · rintro x hx ⟨h0, txt, h1, h2⟩
    unfold loadModel Fs.load
    rw [read_holds h0 h1, ok_bind, h2]
    rcases hx with ⟨c, rfl⟩ | ⟨m, rfl⟩ <;> rfl
  · rintro e (h | ⟨⟨h0, txt, h1, h2⟩, hn⟩)
    · unfold loadModel Fs.load
      rw [read_missing h]; rfl
    · unfold loadModel Fs.load
      rw [read_holds h0 h1, ok_bind, h2]
      cases ‹PyObj› with
      | space s => rfl
      | composer c => exact absurd (Or.inl ⟨c, rfl⟩) hn
      | lexfun m => exact absurd (Or.inr ⟨m, rfl⟩) hn
      | other n => rfl

/-! ### The scripts -/

namespace Refused
variable {fs : Fs} {e : PyErr}

theorem fail : Refused (.fail fs e) fs e := ⟨rfl, fun _ h => h⟩

theorem compute_error {α : Type} {x : Py α} {k : α → Run PyErr} (h : x = .error e) : Refused (.compute fs x k) fs e := by
  subst h
  refine ⟨rfl, ?_⟩
  rintro g (h | ⟨a, ha, _⟩)
  · exact h
  · cases ha

theorem compute_ok {α : Type} {x : Py α} {k : α → Run PyErr} {a : α} (h : x = .ok a) (hk : Refused (k a) fs e) :
    Refused (.compute fs x k) fs e := by
  subst h
  refine ⟨hk.1, ?_⟩
  rintro g (h | ⟨b, hb, hg⟩)
  · exact h
  · cases hb; exact hk.2 g hg

end Refused

theorem loadSecond_refused {L : Lib} {fs : Fs} {f g : Str} {e : PyErr} (h : Unloadable L fs PyObj.IsSpace g e) :
    loadSecond L fs [f, g] = .error e := by
  unfold loadSecond
  simp only [(C128_space L fs g).2 e h]
  rfl

/-- What may be given as the second and later space files of a script without effect on the check of the others. -/
theorem loadSecond_result (L : Lib) (fs : Fs) (files : List Str) (h : ∀ f g, files = [f, g] → ∃ s, HoldsObj L fs g (.space s)) :
    ∃ s2, loadSecond L fs files = .ok s2 := by
  unfold loadSecond
  split
  · rename_i f g
    obtain ⟨s, hs⟩ := h f g rfl
    rw [(C128_space L fs g).1 s hs]
    exact ⟨_, rfl⟩
  · exact ⟨none, rfl⟩

/-- **C128** `build_core_space` with an input pickle that is missing or holds something else than a space. -/
theorem C128_core (L : Lib) (fs : Fs) (pre outDir : Str) (fmt : Option Str) (ws ss rs ns : List (Option Str)) (gz : Bool)
    (e : PyErr) (h : Unloadable L fs PyObj.IsSpace (pre ++ cs!".pkl") e) :
    Refused (buildSpacesR L fs pre cs!"pkl" outDir fmt ws ss rs ns gz) fs e := by
  apply Refused.compute_error
  have : readInput L fs pre cs!"pkl" gz = loadSpace L fs (pre ++ ['.'] ++ cs!"pkl") := by
    unfold readInput
    rw [if_neg (by decide)]
    exact if_pos rfl
  rw [this, List.append_assoc]
  exact (C128_space L fs _).2 e h

/-- **C128** `build_peripheral_space` (one core file) with a readable input and a core file that is missing or holds
something else than a space. -/
theorem C128_periph (L : Lib) (fs : Fs) (pre fmt outDir : Str) (outFmt : Option Str) (core : Str) (gz : Bool)
    (raw : Space Str) (e : PyErr) (hraw : readInput L fs pre fmt gz = .ok raw)
    (h : Unloadable L fs PyObj.IsSpace core e) :
    Refused (buildPeriphR L fs pre fmt outDir outFmt core gz) fs e :=
  Refused.compute_ok hraw (Refused.compute_error ((C128_space L fs core).2 e h))

/-- **C128** `compute_similarities`: a missing first space file raises `IOError`; a first file that holds something else
is skipped, the script succeeding without touching the disk; a second file is refused like everywhere else. -/
theorem C128_sims (L : Lib) (fs : Fs) (inFile outDir : Str) (columns measures : List Str) (c : ℤ × ℤ)
    (hc : twoColumns columns = .ok c) (f : Str) :
    (∀ gs, (f = [] ∨ fs.files.get? (fs.resolve f) = none) →
      Refused (computeSimR L inFile columns outDir measures (f :: gs) fs) fs .ioError) ∧
    (∀ gs x, HoldsObj L fs f x → ¬ x.IsSpace →
      (computeSimR L inFile columns outDir measures (f :: gs) fs).out = .ok fs ∧
      ∀ g, (computeSimR L inFile columns outDir measures (f :: gs) fs).seen g → g = fs) ∧
    (∀ g s e, HoldsObj L fs f (.space s) → Unloadable L fs PyObj.IsSpace g e →
      Refused (computeSimR L inFile columns outDir measures [f, g] fs) fs e) := by
  refine ⟨fun gs h => ?_, fun gs x hx hn => ?_, fun g s e hs h => ?_⟩
  · refine Refused.compute_ok hc ?_
    have e1 := (C128_space L fs f).2 _ (.missing h)
    simp only [e1]
    exact Refused.fail
  · have e1 := (C128_space L fs f).2 _ (.wrong hx hn)
    have e2 : computeSimR L inFile columns outDir measures (f :: gs) fs =
        .compute fs (twoColumns columns) (fun _ => .done fs) := by
      unfold computeSimR
      simp only [e1]
    rw [e2, hc]
    refine ⟨rfl, ?_⟩
    rintro g (h | ⟨_, _, h⟩)
    · exact h
    · exact h
  · refine Refused.compute_ok hc ?_
    have e1 := (C128_space L fs f).1 _ hs
    simp only [e1]
    exact Refused.compute_error (loadSecond_refused h)

/-- **C128** `compute_neighbours`. -/
theorem C128_neighbours (L : Lib) (fs : Fs) (inFile outDir measure : Str) (n : ℤ) (sim : Sim) (e : PyErr)
    (hm : simOf measure = some sim) (f : Str) :
    (∀ gs, Unloadable L fs PyObj.IsSpace f e → Refused (computeNeighboursR L inFile n outDir measure (f :: gs) fs) fs e) ∧
    (∀ g s, HoldsObj L fs f (.space s) → Unloadable L fs PyObj.IsSpace g e →
      Refused (computeNeighboursR L inFile n outDir measure [f, g] fs) fs e) := by
  constructor
  · intro gs h
    unfold computeNeighboursR
    rw [hm]
    exact Refused.compute_error ((C128_space L fs f).2 e h)
  · intro g s hs h
    unfold computeNeighboursR
    rw [hm]
    exact Refused.compute_ok ((C128_space L fs f).1 s hs) (Refused.compute_error (loadSecond_refused h))

/-- **C128** `train_composition`: the argument spaces and the phrase space. -/
theorem C128_train (L : Lib) (fs : Fs) (inFile outDir model phraseFile : Str) (regression : Option Str) (cv ic : Bool)
    (param : ParamVal) (range : Option (List ℝ)) (ex : Bool) (e : PyErr) (f : Str) :
    (∀ gs, Unloadable L fs PyObj.IsSpace f e →
      Refused (trainModelR L fs inFile outDir model (f :: gs) phraseFile regression cv ic param range ex) fs e) ∧
    (∀ g s, HoldsObj L fs f (.space s) → Unloadable L fs PyObj.IsSpace g e →
      Refused (trainModelR L fs inFile outDir model [f, g] phraseFile regression cv ic param range ex) fs e) ∧
    (∀ gs s, HoldsObj L fs f (.space s) → (∀ g, gs = [g] → ∃ t, HoldsObj L fs g (.space t)) →
      Unloadable L fs PyObj.IsSpace phraseFile e →
      Refused (trainModelR L fs inFile outDir model (f :: gs) phraseFile regression cv ic param range ex) fs e) := by
  refine ⟨fun gs h => ?_, fun g s hs h => ?_, fun gs s hs hg h => ?_⟩
  · exact Refused.compute_error ((C128_space L fs f).2 e h)
  · exact Refused.compute_ok ((C128_space L fs f).1 s hs) (Refused.compute_error (loadSecond_refused h))
  · obtain ⟨s2, h2⟩ := loadSecond_result L fs (f :: gs) (fun f' g' he => hg g' (List.cons.inj he).2)
    exact Refused.compute_ok ((C128_space L fs f).1 s hs) (Refused.compute_ok h2
      (Refused.compute_error ((C128_space L fs phraseFile).2 e h)))

/-- **C128** `apply_composition`: the model file, then the argument spaces. -/
theorem C128_apply (L : Lib) (fs : Fs) (inFile outDir : Str) (alpha beta lam : Option ℝ) (outFmt : Option Str) (e : PyErr)
    (trained f : Str) :
    (∀ files, Unloadable L fs PyObj.IsModel trained e →
      Refused (applyModelR L fs inFile outDir none (some trained) files alpha beta lam outFmt) fs e) ∧
    (∀ gs m, m.IsModel → HoldsObj L fs trained m → Unloadable L fs PyObj.IsSpace f e →
      Refused (applyModelR L fs inFile outDir none (some trained) (f :: gs) alpha beta lam outFmt) fs e) ∧
    (∀ g s m, m.IsModel → HoldsObj L fs trained m → HoldsObj L fs f (.space s) → Unloadable L fs PyObj.IsSpace g e →
      Refused (applyModelR L fs inFile outDir none (some trained) [f, g] alpha beta lam outFmt) fs e) := by
  refine ⟨fun gs h => ?_, fun gs m hm hm' h => ?_, fun g s m hm hm' hs h => ?_⟩
  · exact Refused.compute_error ((C128_model L fs trained).2 e h)
  · exact Refused.compute_ok ((C128_model L fs trained).1 m hm hm')
      (Refused.compute_error ((C128_space L fs f).2 e h))
  · exact Refused.compute_ok ((C128_model L fs trained).1 m hm hm') (Refused.compute_ok ((C128_space L fs f).1 s hs)
      (Refused.compute_error (loadSecond_refused h)))

/-! ### Concrete cases: `/data/in.pkl` exists and holds something, `/data/no.pkl` does not exist -/

example (L : Lib) (hu : L.undump cs!"S" = some (.other 3)) (gz : Bool) :
    Refused (buildSpacesR L exFs cs!"/data/in" cs!"pkl" cs!"/out" none [some cs!"ppmi"] [none] [none] [none] gz) exFs
      .typeError :=
  C128_core L exFs cs!"/data/in" cs!"/out" none _ _ _ _ gz _
    (.wrong ⟨by decide, cs!"S", rfl, hu⟩ (by rintro ⟨s, h⟩; cases h))

example (L : Lib) (gz : Bool) :
    Refused (buildSpacesR L exFs cs!"/data/no" cs!"pkl" cs!"/out" none [some cs!"ppmi"] [none] [none] [none] gz) exFs
      .ioError :=
  C128_core L exFs cs!"/data/no" cs!"/out" none _ _ _ _ gz _ (.missing (.inr rfl))

example (L : Lib) (s : Space Str) (hu : L.undump cs!"S" = some (.space s)) (n : ℤ) :
    Refused (computeNeighboursR L cs!"/data/words" n cs!"/out" cs!"cos" [cs!"/data/in.pkl", cs!"/data/no.pkl"] exFs) exFs
      .ioError :=
  (C128_neighbours L exFs cs!"/data/words" cs!"/out" cs!"cos" n .cos .ioError rfl cs!"/data/in.pkl").2 cs!"/data/no.pkl" s
    ⟨by decide, cs!"S", rfl, hu⟩ (.missing (.inr rfl))

example (L : Lib) (s : Space Str) (hu : L.undump cs!"S" = some (.space s)) (files : List Str) :
    Refused (applyModelR L exFs cs!"/data/phrases" cs!"/out" none (some cs!"/data/in.pkl") files none none none none) exFs
      .typeError :=
  (C128_apply L exFs cs!"/data/phrases" cs!"/out" none none none none .typeError cs!"/data/in.pkl" []).1 files
    (.wrong ⟨by decide, cs!"S", rfl, hu⟩ (by rintro (⟨c, h⟩ | ⟨m, h⟩) <;> cases h))

example (L : Lib) (hu : L.undump cs!"S" = some (.other 3)) :
    (computeSimR L cs!"/data/pairs" [cs!"1", cs!"2"] cs!"/out" [cs!"cos"] [cs!"/data/in.pkl"] exFs).out = .ok exFs :=
  ((C128_sims L exFs cs!"/data/pairs" cs!"/out" [cs!"1", cs!"2"] [cs!"cos"] (0, 1) rfl cs!"/data/in.pkl").2.1 []
    (.other 3) ⟨by decide, cs!"S", rfl, hu⟩ (by rintro ⟨s, h⟩; cases h)).1

end
end Dissect
