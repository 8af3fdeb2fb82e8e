import Verif.Props.CoreSpace
import Verif.Props.Training
import Verif.Props.ApplyComp
import Verif.Props.Sims
import Verif.Props.Neighbours
import Verif.Props.PeriphScript

/-! # C165: the output names of different runs

Every script composes the name of its output from a prefix of its own, the name of its input and the options. Two runs into the
same output directory keep each other's results if those names differ. -/

namespace Dissect
noncomputable section

theorem cut_dot : ∀ {a a' x x' : Str}, '.' ∉ a → '.' ∉ a' → a ++ '.' :: x = a' ++ '.' :: x' → a = a' ∧ x = x' := by
  intro a
  induction a with
  | nil =>
    intro a' x x' _ h2 h
    cases a' with
    | nil => injection h with _ h; exact ⟨rfl, h⟩
    | cons c a' => injection h with h _; subst h; simp at h2
  | cons c a ih =>
    intro a' x x' h1 h2 h
    cases a' with
    | nil => injection h with h _; subst h; simp at h1
    | cons c' a' =>
      injection h with e h
      obtain ⟨r1, r2⟩ := ih (fun hm => h1 (List.mem_cons_of_mem _ hm)) (fun hm => h2 (List.mem_cons_of_mem _ hm)) h
      exact ⟨by rw [e, r1], r2⟩

theorem dots_noslash {l : List Str} (h : ∀ t ∈ l, '/' ∉ t) : '/' ∉ (l.map (fun t => '.' :: t)).flatten := by
  simp only [List.mem_flatten, List.mem_map, not_exists, not_and]
  rintro x ⟨t, ht, rfl⟩ hx
  rcases List.mem_cons.1 hx with hx | hx
  · cases hx
  · exact h t ht hx

theorem ext_chars : ∀ e ∈ outExts, '.' ∉ e ∧ '/' ∉ e := by decide

theorem coreFile_ext (fs : Fs) {outDir base e : Str} (hb : '/' ∉ base) {c : Choice} (h : c.Documented) (he : e ∈ outExts) :
    fs.resolve (coreFile outDir base c ++ ['.'] ++ e) =
      fs.resolve (outDir ++ ['/']) ++ [cs!"CORE_SS." ++ base ++ ((c.kept ++ [e]).map (fun t => '.' :: t)).flatten] := by
  rw [coreFile_kept]
  have hs : '/' ∉ cs!"CORE_SS." ++ base ++ ((c.kept ++ [e]).map (fun t => '.' :: t)).flatten := by
    have hn : '/' ∉ ((c.kept ++ [e]).map (fun t => '.' :: t)).flatten := dots_noslash (by
      intro t ht
      rcases List.mem_append.1 ht with ht | ht
      · exact (kept_noc h t ht).2
      · rw [List.mem_singleton.1 ht]; exact (ext_chars e he).2)
    intro hm
    rcases List.mem_append.1 hm with hm | hm
    · rcases List.mem_append.1 hm with hm | hm
      · revert hm; decide
      · exact hb hm
    · exact hn hm
  have := resolve_in fs outDir hs (by simp) (by simp)
  rw [← this]
  congr 1
  simp

/-- Names made of dot-free parts are different when a part is. -/
theorem coreFile_inj' (fs : Fs) {outDir base base' e e' : Str} (hb : '/' ∉ base) (hb' : '/' ∉ base') (hd : '.' ∉ base)
    (hd' : '.' ∉ base') {c d : Choice} (hc : c.Documented) (hc' : d.Documented) (he : e ∈ outExts) (he' : e' ∈ outExts)
    (h : fs.resolve (coreFile outDir base c ++ ['.'] ++ e) = fs.resolve (coreFile outDir base' d ++ ['.'] ++ e')) :
    base = base' ∧ c.Same d := by
  have h0 := h
  rw [coreFile_ext fs hb hc he, coreFile_ext fs hb' hc' he'] at h
  have h := (List.append_inj' h rfl).2
  injection h with h
  rw [List.append_assoc, List.append_assoc] at h
  have h := List.append_cancel_left h
  have h : ((base :: (c.kept ++ [e])).map (fun t => '.' :: t)).flatten = ((base' :: (d.kept ++ [e'])).map (fun t => '.' :: t)).flatten := by
    simp only [List.map_cons, List.flatten_cons, List.cons_append]
    rw [h]
  have noc : ∀ {b f : Str} {c : Choice}, '.' ∉ b → c.Documented → f ∈ outExts → ∀ t ∈ b :: (c.kept ++ [f]), '.' ∉ t := by
    intro b f c hb hc hf t ht
    rcases List.mem_cons.1 ht with rfl | ht
    · exact hb
    · rcases List.mem_append.1 ht with ht | ht
      · exact (kept_noc hc t ht).1
      · rw [List.mem_singleton.1 ht]; exact (ext_chars f hf).1
  have h := dots_inj _ _ (noc hd hc he) (noc hd' hc' he') h
  injection h with h1 h2
  have h2 := (List.append_inj' h2 rfl).1
  refine ⟨h1, coreFile_inj fs (outDir := outDir) hb hc hc' ?_⟩
  rw [coreFile_resolve fs hb hc, coreFile_resolve fs hb hc', h2]

/-- **C165** (the part that holds) Two runs of `build_core_space.py` into the same directory, with documented operations and
input names without dots: a later run keeps every file of an earlier result that belongs to another input or to other
operations. -/
theorem C165_core_partial {L : Lib} {fs fs' : Fs} {pre base base' fmt outDir : Str} {outFormat : Option Str}
    {ws ss rs ns : List (Option Str)} {gz : Bool} (hb : IsBase pre base) (hb' : '/' ∉ base') (hd : '.' ∉ base) (hd' : '.' ∉ base')
    (hdoc : ∀ c, choices ws ss rs ns c → c.Documented)
    (h : buildSpaces L fs pre fmt outDir outFormat ws ss rs ns gz = .ok fs') {c : Choice} (hc : c.Documented)
    (hne : ∀ d, choices ws ss rs ns d → base' ≠ base ∨ ¬ c.Same d) {e : Str} (he : e ∈ outExts) :
    fs'.read (coreFile outDir base' c ++ ['.'] ++ e) = fs.read (coreFile outDir base' c ++ ['.'] ++ e) := by
  refine C67_other_files hb h (fun d hd2 e' he' heq => ?_)
  obtain ⟨r1, r2⟩ := coreFile_inj' fs hb' hb.1 hd' hd hc (hdoc d hd2) he he' heq
  rcases hne d hd2 with hn | hn
  · exact hn r1
  · exact hn r2

/-- **C165** (the part that holds) After two successful runs on two inputs with different dot-free names, every file of either
run holds the result of its own input. -/
theorem C165_two_inputs_partial {L : Lib} {fs fs1 fs2 : Fs} {pre base fmt pre' base' fmt' outDir : Str}
    {outFormat outFormat' : Option Str} {ws ss rs ns ws' ss' rs' ns' : List (Option Str)} {gz gz' : Bool} (hb : IsBase pre base)
    (hb' : IsBase pre' base') (hd : '.' ∉ base) (hd' : '.' ∉ base') (hne : base ≠ base')
    (hdoc : ∀ c, choices ws ss rs ns c → c.Documented) (hdoc' : ∀ c, choices ws' ss' rs' ns' c → c.Documented)
    (h1 : buildSpaces L fs pre fmt outDir outFormat ws ss rs ns gz = .ok fs1)
    (h2 : buildSpaces L fs1 pre' fmt' outDir outFormat' ws' ss' rs' ns' gz' = .ok fs2) :
    ∃ input input', InputSpace L fs pre gz fmt input ∧ InputSpace L fs1 pre' gz' fmt' input' ∧
      (∀ c, choices ws ss rs ns c → ∃ res, c.Result L.env input res ∧
        fs2.read (coreFile outDir base c ++ cs!".pkl") = .ok (L.dump (.space res))) ∧
      (∀ c, choices ws' ss' rs' ns' c → ∃ res, c.Result L.env input' res ∧
        fs2.read (coreFile outDir base' c ++ cs!".pkl") = .ok (L.dump (.space res))) := by
  obtain ⟨input, i1, r1⟩ := C67_every_combination hb hdoc h1
  obtain ⟨input', i2, r2⟩ := C67_every_combination hb' hdoc' h2
  refine ⟨input, input', i1, i2, fun c hc => ?_, fun c hc => ?_⟩
  · obtain ⟨res, a, b⟩ := r1 c hc
    refine ⟨res, a, ?_⟩
    have := C165_core_partial hb' hb.1 hd' hd hdoc' h2 (hdoc c hc) (fun d _ => Or.inl hne) (e := cs!"pkl") (by decide)
    rw [pkl_eq, this, ← pkl_eq]
    exact b.pickle
  · obtain ⟨res, a, b⟩ := r2 c hc
    exact ⟨res, a, b.pickle⟩

/-- **C165** (not for all names) The result of `ppmi` on the input `x` and the unchanged input `x.ppmi` have the same name: if
both inputs are processed into the same directory, the file named after the first result holds the second input. -/
theorem C165_refuted {L : Lib} {fs fs1 fs2 : Fs} {pre base fmt pre' fmt' outDir w : Str} {gz gz' : Bool} {a : List Trans}
    (hb : IsBase pre base) (hb' : IsBase pre' (base ++ '.' :: w)) (hw : WMeans (some w) a) (ha : a ≠ [])
    (h1 : buildSpaces L fs pre fmt outDir none [some w] [none] [none] [none] gz = .ok fs1)
    (h2 : buildSpaces L fs1 pre' fmt' outDir none [none] [none] [none] [none] gz' = .ok fs2) :
    ∃ input input' res, InputSpace L fs pre gz fmt input ∧ InputSpace L fs1 pre' gz' fmt' input' ∧
      input.applyAll L.env a = .ok res ∧
      fs1.read (coreFile outDir base ⟨some w, none, none, none⟩ ++ cs!".pkl") = .ok (L.dump (.space res)) ∧
      fs2.read (coreFile outDir base ⟨some w, none, none, none⟩ ++ cs!".pkl") = .ok (L.dump (.space input')) := by
  have hdoc : ∀ c, choices [some w] [none] [none] [none] c → c.Documented := by
    rintro ⟨cw, s, r, n⟩ ⟨k1, k2, k3, k4⟩
    simp only [List.mem_singleton] at k1 k2 k3 k4
    subst k1 k2 k3 k4
    exact ⟨Or.inr ⟨a, ha, hw⟩, Or.inl (Or.inl rfl), Or.inl (Or.inl rfl), Or.inl (Or.inl rfl)⟩
  have hdoc' : ∀ c, choices [none] [none] [none] [none] c → c.Documented := by
    rintro ⟨cw, s, r, n⟩ ⟨k1, k2, k3, k4⟩
    simp only [List.mem_singleton] at k1 k2 k3 k4
    subst k1 k2 k3 k4
    exact ⟨Or.inl (Or.inl rfl), Or.inl (Or.inl rfl), Or.inl (Or.inl rfl), Or.inl (Or.inl rfl)⟩
  obtain ⟨input, i1, r1⟩ := C67_every_combination hb hdoc h1
  obtain ⟨input', i2, r2⟩ := C67_every_combination hb' hdoc' h2
  obtain ⟨res, q1, q2⟩ := r1 ⟨some w, none, none, none⟩ ⟨by simp, by simp, by simp, by simp⟩
  obtain ⟨res', p1, p2⟩ := r2 ⟨none, none, none, none⟩ ⟨by simp, by simp, by simp, by simp⟩
  have nl : NoneLike none := Or.inl rfl
  obtain ⟨x, y, z, u, m1, m2, m3, m4, m5⟩ := p1
  obtain rfl := (wskip nl).1 m1
  obtain rfl := (sskip nl).1 m2
  obtain rfl := (rskip nl).1 m3
  obtain rfl := (nskip nl).1 m4
  obtain rfl := ok_inj m5
  obtain ⟨x, y, z, u, n1, n2, n3, n4, n5⟩ := q1
  obtain rfl := (sskip nl).1 n2
  obtain rfl := (rskip nl).1 n3
  obtain rfl := (nskip nl).1 n4
  have hx : x = a := by
    cases hw with
    | skip => exact absurd rfl ha
    | named hm =>
      simp only [weightingTable, List.mem_cons, Prod.mk.injEq, List.not_mem_nil, or_false] at hm
      cases n1 with
      | skip hn => 
        exfalso
        simp only [weightingTable, List.mem_cons, Prod.mk.injEq, List.not_mem_nil, or_false] at hn
        rcases hm with ⟨rfl, _⟩ | ⟨rfl, _⟩ | ⟨rfl, _⟩ | ⟨rfl, _⟩ <;> simp at hn
      | named hn =>
        simp only [weightingTable, List.mem_cons, Prod.mk.injEq, List.not_mem_nil, or_false] at hn
        rcases hm with ⟨rfl, rfl⟩ | ⟨rfl, rfl⟩ | ⟨rfl, rfl⟩ | ⟨rfl, rfl⟩ <;>
        rcases hn with ⟨hn, rfl⟩ | ⟨hn, rfl⟩ | ⟨hn, rfl⟩ | ⟨hn, rfl⟩ <;> first | rfl | (exfalso; revert hn; decide)
  subst hx
  simp only [List.append_nil] at n5
  refine ⟨input, input', res, i1, i2, n5, q2.pickle, ?_⟩
  have hwn : ¬ (w = [] ∨ w = cs!"none") := by
    cases hw with
    | skip => exact absurd rfl ha
    | named hm =>
      simp only [weightingTable, List.mem_cons, Prod.mk.injEq, List.not_mem_nil, or_false] at hm
      rcases hm with ⟨rfl, _⟩ | ⟨rfl, _⟩ | ⟨rfl, _⟩ | ⟨rfl, _⟩ <;> decide
  have hsame : coreFile outDir base ⟨some w, none, none, none⟩ = coreFile outDir (base ++ '.' :: w) ⟨none, none, none, none⟩ := by
    simp only [coreFile, dotted, if_neg hwn]
    simp
  rw [hsame]
  exact p2.pickle


/-! ## The other scripts -/

/-- The name of a file in the output directory, as the file system sees it. -/
theorem resolve_name (fs : Fs) (outDir : Str) {nm nm' : Str} (h1 : '/' ∉ nm) (h2 : '/' ∉ nm') (h3 : nm ≠ []) (h4 : nm ≠ ['.'])
    (h5 : nm' ≠ []) (h6 : nm' ≠ ['.']) (h : fs.resolve (outDir ++ '/' :: nm) = fs.resolve (outDir ++ '/' :: nm')) : nm = nm' := by
  rw [resolve_in fs outDir h1 h3 h4, resolve_in fs outDir h2 h5 h6] at h
  have h := (List.append_inj' h rfl).2
  injection h

theorem trained_inj (fs : Fs) {outDir base base' model model' : Str} (hb : '/' ∉ base) (hb' : '/' ∉ base')
    (hm : '.' ∉ model ∧ '/' ∉ model) (hm' : '.' ∉ model' ∧ '/' ∉ model')
    (h : fs.resolve (trainedFile outDir model base ++ cs!".pkl") = fs.resolve (trainedFile outDir model' base' ++ cs!".pkl")) :
    model = model' ∧ base = base' := by
  have e : ∀ m b, trainedFile outDir m b ++ cs!".pkl" = outDir ++ '/' :: (cs!"TRAINED_COMP_MODEL." ++ (m ++ '.' :: (b ++ cs!".pkl"))) := by
    intro m b; simp [trainedFile]
  rw [e, e] at h
  have h := resolve_name fs outDir (by simp [hb, hm.2]) (by simp [hb', hm'.2]) (by simp) (by simp) (by simp) (by simp) h
  obtain ⟨r1, r2⟩ := cut_dot hm.1 hm'.1 (List.append_cancel_left h)
  exact ⟨r1, List.append_cancel_right r2⟩

/-- The names that `train_composition.py` accepts contain neither dots nor slashes. -/
theorem trained_model {L : Lib} {fs fs' : Fs} {inFile base outDir model phraseFile : Str} {argFiles : List Str}
    {regression : Option Str} {cv ic ex : Bool} {param : ParamVal} {range : Option (List ℝ)} (hb : IsBase inFile base)
    (h : trainModel L fs inFile outDir model argFiles phraseFile regression cv ic param range ex = .ok fs') :
    '.' ∉ model ∧ '/' ∉ model := by
  obtain ⟨first, args, phrase, txt, data, obj, h1, h2, -⟩ := C76_saves hb h
  by_contra hc
  have hm : model ∉ [cs!"weighted_add", cs!"full_add", cs!"lexical_func", cs!"dilation"] := by
    intro hm
    have : ∀ m ∈ [cs!"weighted_add", cs!"full_add", cs!"lexical_func", cs!"dilation"], '.' ∉ m ∧ '/' ∉ m := by decide
    exact hc (this _ hm)
  rw [C76_unknown_model h1 h2 hm] at h
  cases h

/-- **C165** Training: whatever the names of the input files, a later training run that exports no parameters keeps the trained
model of an earlier successful run with another model or another input name. -/
theorem C165_trained {L : Lib} {fs fs1 fs2 : Fs} {inFile base model phraseFile inFile' base' model' phraseFile' outDir : Str}
    {argFiles argFiles' : List Str} {regression regression' : Option Str} {cv ic ex cv' ic' : Bool} {param param' : ParamVal}
    {range range' : Option (List ℝ)} (hb : IsBase inFile base) (hb' : IsBase inFile' base') (hne : (model, base) ≠ (model', base'))
    (h1 : trainModel L fs inFile outDir model argFiles phraseFile regression cv ic param range ex = .ok fs1)
    (h2 : trainModel L fs1 inFile' outDir model' argFiles' phraseFile' regression' cv' ic' param' range' false = .ok fs2) :
    fs2.read (trainedFile outDir model base ++ cs!".pkl") = fs1.read (trainedFile outDir model base ++ cs!".pkl") := by
  refine C76_other_files hb' h2 (fun heq => hne ?_) (fun hc => absurd hc (by simp))
  obtain ⟨r1, r2⟩ := trained_inj fs1 hb.1 hb'.1 (trained_model hb h1) (trained_model hb' h2) heq
  rw [r1, r2]

theorem class_chars {m : PyObj} {cls : Str} (h : ClassOf m cls) : '.' ∉ cls ∧ '/' ∉ cls := by
  cases h <;> decide

/-- **C165** Composition: whatever the names of the input files, a later run of `apply_composition.py` keeps every file of a
composed space of a model of another class or from another input. -/
theorem C165_composed {L : Lib} {fs fs' : Fs} {inFile base base' cls outDir : Str} {model trained : Option Str} {argFiles : List Str}
    {alpha beta lam : Option ℝ} {fmt : Option Str} {m : PyObj} (hb : IsBase inFile base) (hb' : '/' ∉ base') (hm : ClassOf m cls)
    (h : applyModel L fs inFile outDir model trained argFiles alpha beta lam fmt = .ok fs')
    (hne : ∀ m' cls', SelectedModel L fs alpha beta lam model trained m' → ClassOf m' cls' → cls ≠ cls' ∨ base' ≠ base)
    {e : Str} (he : e ∈ outExts) :
    fs'.read (composedFile outDir cls base' ++ ['.'] ++ e) = fs.read (composedFile outDir cls base' ++ ['.'] ++ e) := by
  refine C79_other_files hb h (fun m' cls' hs hc e' he' heq => ?_)
  have key : ∀ c b f, composedFile outDir c b ++ ['.'] ++ f = outDir ++ '/' :: (cs!"COMPOSED_SS." ++ (c ++ '.' :: (b ++ ['.'] ++ f))) := by
    intro c b f; simp [composedFile]
  rw [key, key] at heq
  have heq := resolve_name fs outDir (by simp [hb', (class_chars hm).2, (ext_chars e he).2])
    (by simp [hb.1, (class_chars hc).2, (ext_chars e' he').2]) (by simp) (by simp) (by simp) (by simp) heq
  obtain ⟨r1, r2⟩ := cut_dot (class_chars hm).1 (class_chars hc).1 (List.append_cancel_left heq)
  obtain ⟨r3, -⟩ := dot_split (ext_chars e he).1 (ext_chars e' he').1 r2
  rcases hne m' cls' hs hc with hn | hn
  · exact hn r1
  · exact hn r3

/-- **C165** (the part that holds) Peripheral spaces: with input names without dots, a later run keeps every file of a
peripheral space of another input or another core space. -/
theorem C165_periph_partial {L : Lib} {fs fs' : Fs} {pre base base' fmt outDir core st st' : Str} {outFormat : Option Str} {gz : Bool}
    (hb : IsBase pre base) (hs : IsStem core st) (hb' : '/' ∉ base') (hst' : '/' ∉ st') (hd : '.' ∉ base) (hd' : '.' ∉ base')
    (h : buildPeriph L fs pre fmt outDir outFormat core gz = .ok fs') (hne : (base', st') ≠ (base, st)) {e : Str} (he : e ∈ outExts) :
    fs'.read (periphFile outDir base' st' ++ ['.'] ++ e) = fs.read (periphFile outDir base' st' ++ ['.'] ++ e) := by
  refine C81_other_files hb hs h (fun e' he' heq => hne ?_)
  have key : ∀ b s f, periphFile outDir b s ++ ['.'] ++ f = outDir ++ '/' :: (cs!"PER_SS." ++ (b ++ '.' :: (s ++ ['.'] ++ f))) := by
    intro b s f; simp [periphFile]
  have hst : '/' ∉ st := by
    obtain ⟨b, k1, ⟨ext, -, rfl⟩ | ⟨-, rfl⟩⟩ := hs
    · intro hm; exact k1.1 (List.mem_append_left _ hm)
    · simp
  rw [key, key] at heq
  have heq := resolve_name fs outDir (by simp [hb', hst', (ext_chars e he).2]) (by simp [hb.1, hst, (ext_chars e' he').2])
    (by simp) (by simp) (by simp) (by simp) heq
  obtain ⟨r1, r2⟩ := cut_dot hd' hd (List.append_cancel_left heq)
  obtain ⟨r3, -⟩ := dot_split (ext_chars e he).1 (ext_chars e' he').1 r2
  rw [r1, r3]

/-- **C165** (the part that holds) Similarities: with input names without dots, a later run keeps the similarity file of another
input, other spaces or another measure. -/
theorem C165_sims_partial {L : Lib} {fs fs' : Fs} {inFile base base' outDir d d' a b m' : Str} {files : List Str} {i j : ℕ} {s : Space Str}
    {s2 : Option (Space Str)} {measures : List Str} {sim' : Sim} (hb : IsBase inFile base) (hn : IsFileName base)
    (ha : pyInt a = .ok ((i + 1 : ℕ) : ℤ)) (hb2 : pyInt b = .ok ((j + 1 : ℕ) : ℤ)) (hnm : SpacesName files d)
    (hs : SpacesFrom L fs files s s2) (h : computeSim L inFile [a, b] outDir measures files fs = .ok fs')
    (hb' : '/' ∉ base') (hd' : '/' ∉ d') (hdot : '.' ∉ base) (hdot' : '.' ∉ base') (hm' : (m', sim') ∈ measureTable)
    (hne : base' ≠ base ∨ d' ≠ d ∨ m' ∉ measures) :
    fs'.read (simsFile outDir base' d' m') = fs.read (simsFile outDir base' d' m') := by
  refine C71_other_files hb hn ha hb2 hnm hs h (fun m hm sim hk heq => ?_)
  rw [simsFile_resolve fs hb' hd' hm', simsFile_resolve fs hb.1 (spacesDescr_eq hnm).2 hk] at heq
  have heq := (List.append_inj' heq rfl).2
  injection heq with heq
  obtain ⟨h1, h2⟩ := dot_split (measure_chars hm').2.1 (measure_chars hk).2.1 heq
  have h1 : cs!"SIMS." ++ (base' ++ '.' :: d') = cs!"SIMS." ++ (base ++ '.' :: d) := by simpa using h1
  obtain ⟨r1, r2⟩ := cut_dot hdot' hdot (List.append_cancel_left h1)
  rcases hne with hn | hn | hn
  · exact hn r1
  · exact hn r2
  · exact hn (h2 ▸ hm)

/-- **C165** (the part that holds) Neighbours: with input names without dots, a later run keeps the neighbours file of another
input, other spaces or another measure. -/
theorem C165_neighbours_partial {L : Lib} {fs fs' : Fs} {inFile base base' outDir d d' m m' : Str} {n : ℤ} {files : List Str} {s : Space Str}
    {s2 : Option (Space Str)} {sim sim' : Sim} (hb : IsBase inFile base) (hnm : SpacesName files d)
    (hs : SpacesFrom L fs files s s2) (hk : (m, sim) ∈ measureTable)
    (h : computeNeighbours L inFile n outDir m files fs = .ok fs')
    (hb' : '/' ∉ base') (hd' : '/' ∉ d') (hdot : '.' ∉ base) (hdot' : '.' ∉ base') (hm' : (m', sim') ∈ measureTable)
    (hne : base' ≠ base ∨ d' ≠ d ∨ m' ≠ m) :
    fs'.read (neighboursFile outDir base' d' m') = fs.read (neighboursFile outDir base' d' m') := by
  refine C82_other_files hb hnm hs hk h (fun heq => ?_)
  rw [neighboursFile_eq, neighboursFile_eq] at heq
  have heq := resolve_name fs outDir (neighName_noslash hb' hd' hm') (neighName_noslash hb.1 (spacesDescr_eq hnm).2 hk)
    (by simp) (by simp) (by simp) (by simp) heq
  obtain ⟨h1, h2⟩ := dot_split (measure_chars hm').2.1 (measure_chars hk).2.1 heq
  have h1 : cs!"NEIGHBOURS." ++ (base' ++ '.' :: d') = cs!"NEIGHBOURS." ++ (base ++ '.' :: d) := by simpa using h1
  obtain ⟨r1, r2⟩ := cut_dot hdot' hdot (List.append_cancel_left h1)
  rcases hne with hn | hn | hn
  · exact hn r1
  · exact hn r2
  · exact hn h2

/-! ## Different scripts -/

/-- The file `p` does not have a name that begins with `kind`. -/
def OtherKind (fs : Fs) (kind p : Str) : Prop := ∀ dir nm, fs.resolve p = dir ++ [nm] → ¬ kind <+: nm

theorem OtherKind.ne {fs : Fs} {kind p outDir rest : Str} (h : OtherKind fs kind p) (h1 : '/' ∉ kind) (h2 : '/' ∉ rest)
    (h3 : kind ≠ []) (h4 : kind.head? ≠ some '.') : fs.resolve p ≠ fs.resolve (outDir ++ '/' :: (kind ++ rest)) := by
  intro heq
  rw [resolve_in fs outDir (by simp [h1, h2]) (by simp [h3]) ?_] at heq
  · exact h _ _ heq (List.prefix_append _ _)
  · intro hk
    cases kind with
    | nil => exact h3 rfl
    | cons c t => injection hk with hk _; subst hk; exact h4 rfl

/-- **C165** `build_core_space.py` with documented operations writes only files whose names begin with `CORE_SS.` -/
theorem C165_kind_core {L : Lib} {fs fs' : Fs} {pre base fmt outDir : Str} {outFormat : Option Str}
    {ws ss rs ns : List (Option Str)} {gz : Bool} (hb : IsBase pre base) (hdoc : ∀ c, choices ws ss rs ns c → c.Documented)
    (h : buildSpaces L fs pre fmt outDir outFormat ws ss rs ns gz = .ok fs') {p : Str} (hp : OtherKind fs cs!"CORE_SS." p) :
    fs'.read p = fs.read p := by
  refine C67_other_files hb h (fun d hd e he heq => ?_)
  rw [coreFile_ext fs hb.1 (hdoc d hd) he, List.append_assoc (cs!"CORE_SS.")] at heq
  exact hp _ _ heq (List.prefix_append _ _)

/-- **C165** `build_peripheral_space.py` writes only files whose names begin with `PER_SS.` -/
theorem C165_kind_periph {L : Lib} {fs fs' : Fs} {pre base fmt outDir core st : Str} {outFormat : Option Str} {gz : Bool}
    (hb : IsBase pre base) (hs : IsStem core st) (h : buildPeriph L fs pre fmt outDir outFormat core gz = .ok fs') {p : Str}
    (hp : OtherKind fs cs!"PER_SS." p) : fs'.read p = fs.read p := by
  refine C81_other_files hb hs h (fun e he => ?_)
  have hst : '/' ∉ st := by
    obtain ⟨b, k1, ⟨ext, -, rfl⟩ | ⟨-, rfl⟩⟩ := hs
    · intro hm; exact k1.1 (List.mem_append_left _ hm)
    · simp
  have := hp.ne (outDir := outDir) (rest := base ++ ['.'] ++ st ++ ['.'] ++ e) (by decide) (by simp [hb.1, hst, (ext_chars e he).2])
    (by simp) (by decide)
  rw [show periphFile outDir base st ++ ['.'] ++ e = outDir ++ '/' :: (cs!"PER_SS." ++ (base ++ ['.'] ++ st ++ ['.'] ++ e)) by
    simp [periphFile]]
  exact this

/-- **C165** `train_composition.py` writes only files whose names begin with `TRAINED_COMP_MODEL.` -/
theorem C165_kind_train {L : Lib} {fs fs' : Fs} {inFile base outDir model phraseFile : Str} {argFiles : List Str}
    {regression : Option Str} {cv ic ex : Bool} {param : ParamVal} {range : Option (List ℝ)} (hb : IsBase inFile base)
    (h : trainModel L fs inFile outDir model argFiles phraseFile regression cv ic param range ex = .ok fs') {p : Str}
    (hp : OtherKind fs cs!"TRAINED_COMP_MODEL." p) : fs'.read p = fs.read p := by
  have hm := (trained_model hb h).2
  have key : ∀ x : Str, '/' ∉ x → fs.resolve p ≠ fs.resolve (trainedFile outDir model base ++ x) := by
    intro x hx
    have := hp.ne (outDir := outDir) (rest := model ++ ['.'] ++ base ++ x) (by decide) (by simp [hb.1, hm, hx]) (by simp) (by decide)
    rw [show trainedFile outDir model base ++ x = outDir ++ '/' :: (cs!"TRAINED_COMP_MODEL." ++ (model ++ ['.'] ++ base ++ x)) by
      simp [trainedFile]]
    exact this
  refine C76_other_files hb h (key _ (by decide)) (fun _ q hq => ?_)
  simp only [paramFiles, List.mem_cons, List.mem_map] at hq
  rcases hq with rfl | ⟨e, he, rfl⟩
  · exact key _ (by decide)
  · have := key (cs!".params" ++ ['.'] ++ e) (by simp [(ext_chars e he).2])
    simpa using this

/-- **C165** `apply_composition.py` writes only files whose names begin with `COMPOSED_SS.` -/
theorem C165_kind_apply {L : Lib} {fs fs' : Fs} {inFile base outDir : Str} {model trained : Option Str} {argFiles : List Str}
    {alpha beta lam : Option ℝ} {fmt : Option Str} (hb : IsBase inFile base)
    (h : applyModel L fs inFile outDir model trained argFiles alpha beta lam fmt = .ok fs') {p : Str}
    (hp : OtherKind fs cs!"COMPOSED_SS." p) : fs'.read p = fs.read p := by
  refine C79_other_files hb h (fun m cls _ hc e he => ?_)
  have := hp.ne (outDir := outDir) (rest := cls ++ ['.'] ++ base ++ ['.'] ++ e) (by decide)
    (by simp [hb.1, (class_chars hc).2, (ext_chars e he).2]) (by simp) (by decide)
  rw [show composedFile outDir cls base ++ ['.'] ++ e = outDir ++ '/' :: (cs!"COMPOSED_SS." ++ (cls ++ ['.'] ++ base ++ ['.'] ++ e)) by
    simp [composedFile]]
  exact this

/-- **C165** `compute_similarities.py` writes only files whose names begin with `SIMS.` -/
theorem C165_kind_sims {L : Lib} {fs fs' : Fs} {inFile base outDir d a b : Str} {files : List Str} {i j : ℕ} {s : Space Str}
    {s2 : Option (Space Str)} {measures : List Str} (hb : IsBase inFile base) (hn : IsFileName base)
    (ha : pyInt a = .ok ((i + 1 : ℕ) : ℤ)) (hb' : pyInt b = .ok ((j + 1 : ℕ) : ℤ)) (hnm : SpacesName files d)
    (hs : SpacesFrom L fs files s s2) (h : computeSim L inFile [a, b] outDir measures files fs = .ok fs') {p : Str}
    (hp : OtherKind fs cs!"SIMS." p) : fs'.read p = fs.read p := by
  refine C71_other_files hb hn ha hb' hnm hs h (fun m _ sim hk => ?_)
  have := hp.ne (outDir := outDir) (rest := base ++ ['.'] ++ d ++ ['.'] ++ m) (by decide)
    (by simp [hb.1, (spacesDescr_eq hnm).2, (measure_chars hk).1]) (by simp) (by decide)
  rw [show simsFile outDir base d m = outDir ++ '/' :: (cs!"SIMS." ++ (base ++ ['.'] ++ d ++ ['.'] ++ m)) by simp [simsFile]]
  exact this

/-- **C165** `compute_neighbours.py` writes only files whose names begin with `NEIGHBOURS.` -/
theorem C165_kind_neighbours {L : Lib} {fs fs' : Fs} {inFile base outDir d m : Str} {n : ℤ} {files : List Str} {s : Space Str}
    {s2 : Option (Space Str)} {sim : Sim} (hb : IsBase inFile base) (hnm : SpacesName files d)
    (hs : SpacesFrom L fs files s s2) (hk : (m, sim) ∈ measureTable)
    (h : computeNeighbours L inFile n outDir m files fs = .ok fs') {p : Str}
    (hp : OtherKind fs cs!"NEIGHBOURS." p) : fs'.read p = fs.read p := by
  refine C82_other_files hb hnm hs hk h ?_
  have := hp.ne (outDir := outDir) (rest := base ++ ['.'] ++ d ++ ['.'] ++ m) (by decide)
    (by simp [hb.1, (spacesDescr_eq hnm).2, (measure_chars hk).1]) (by simp) (by decide)
  rw [show neighboursFile outDir base d m = outDir ++ '/' :: (cs!"NEIGHBOURS." ++ (base ++ ['.'] ++ d ++ ['.'] ++ m)) by
    simp [neighboursFile]]
  exact this

end
end Dissect
