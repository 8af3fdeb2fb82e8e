import Verif.Lemmas.CoreSpace
import Verif.Lemmas.Text

/-! Lemmas: the file names of `build_core_space.py`. -/

namespace Dissect
noncomputable section

theorem mem_strip {s : Str} {c : Char} (h : c ∈ s) (hw : isWs c = false) : c ∈ strip s := by
  unfold strip
  have h1 : c ∈ s.dropWhile isWs := by
    have := List.takeWhile_append_dropWhile (p := isWs) (l := s)
    rw [← this] at h
    rcases List.mem_append.1 h with h | h
    · have := List.mem_takeWhile_imp h
      rw [hw] at this; cases this
    · exact h
  obtain ⟨t, ht, he⟩ := rstrip_decomp (s.dropWhile isWs)
  rw [he] at h1
  rcases List.mem_append.1 h1 with h | h
  · exact h
  · have := ht c h
    rw [hw] at this; cases this

theorem isDigits_mem {s : Str} (h : isDigits s = true) : ∀ c ∈ s, 48 ≤ c.toNat ∧ c.toNat ≤ 57 := by
  unfold isDigits at h
  simp only [Bool.and_eq_true, List.all_eq_true, decide_eq_true_eq] at h
  exact h.2

/-- The characters of an integer literal. -/
theorem pyInt_chars {d : Str} {i : ℤ} (h : pyInt d = .ok i) : ∀ c ∈ strip d, c = '-' ∨ c = '+' ∨ (48 ≤ c.toNat ∧ c.toNat ≤ 57) := by
  unfold pyInt at h
  split at h
  · rename_i ds he
    split at h
    · rename_i hd
      rw [he]
      intro c hc
      rcases List.mem_cons.1 hc with rfl | hc
      · exact Or.inl rfl
      · exact Or.inr (Or.inr (isDigits_mem hd c hc))
    · cases h
  · rename_i ds he
    split at h
    · rename_i hd
      rw [he]
      intro c hc
      rcases List.mem_cons.1 hc with rfl | hc
      · exact Or.inr (Or.inl rfl)
      · exact Or.inr (Or.inr (isDigits_mem hd c hc))
    · cases h
  · split at h
    · rename_i hd
      intro c hc
      exact Or.inr (Or.inr (isDigits_mem hd c hc))
    · cases h

theorem pyInt_noc {d : Str} {i : ℤ} (h : pyInt d = .ok i) {c : Char} (hc : c = '.' ∨ c = '/') : c ∉ d := by
  intro hm
  have hw : isWs c = false := by rcases hc with rfl | rfl <;> decide
  have := pyInt_chars h c (mem_strip hm hw)
  rcases hc with rfl | rfl
  · revert this; decide
  · revert this; decide

/-- Without "no operation". -/
def norm (t : Option Str) : Option Str :=
  match t with
  | none => none
  | some x => if x = [] ∨ x = cs!"none" then none else some x

theorem norm_noneLike {t : Option Str} (h : NoneLike t) : norm t = none := by
  rcases h with rfl | rfl | rfl <;> simp [norm]

theorem norm_eq_none {t : Option Str} (h : norm t = none) : NoneLike t := by
  cases t with
  | none => exact Or.inl rfl
  | some x =>
    simp only [norm] at h
    split at h
    · rename_i hx
      rcases hx with rfl | rfl
      · exact Or.inr (Or.inl rfl)
      · exact Or.inr (Or.inr rfl)
    · cases h

theorem norm_some {t : Option Str} {x : Str} (h : norm t = some x) : t = some x := by
  cases t with
  | none => cases h
  | some y =>
    simp only [norm] at h
    split at h
    · cases h
    · exact h

theorem sameOpt_of_norm {t u : Option Str} (h : norm t = norm u) : SameOpt t u := by
  cases hn : norm t with
  | none => exact Or.inr ⟨norm_eq_none hn, norm_eq_none (h.symm.trans hn)⟩
  | some x => exact Or.inl ((norm_some hn).trans (norm_some (h.symm.trans hn)).symm)

theorem dotted_norm (t : Option Str) : dotted t = match norm t with
    | none => []
    | some x => '.' :: x := by
  cases t with
  | none => rfl
  | some x =>
    simp only [dotted, norm]
    split <;> rfl

/-! ### The name computed by the script is the documented one -/

theorem keptOps_cons (t : Option Str) (l : List (Option Str)) : keptOps (t :: l) = (norm t).toList ++ keptOps l := by
  cases t with
  | none => simp [keptOps, norm]
  | some x =>
    unfold keptOps norm
    by_cases h1 : x = []
    · simp [h1]
    · by_cases h2 : x = cs!"none"
      · simp [h2]
      · simp [h1, h2]

theorem joinStr_dots (x : Str) : ∀ l : List Str, joinStr ['.'] (x :: l) = x ++ (l.map (fun t => '.' :: t)).flatten := by
  intro l
  induction l generalizing x with
  | nil => simp [joinStr]
  | cons y ys ih =>
    rw [joinStr_cons _ _ (by simp), ih y]
    simp

theorem dots_kept (l : List (Option Str)) : ((keptOps l).map (fun t => '.' :: t)).flatten = (l.map dotted).flatten := by
  induction l with
  | nil => rfl
  | cons t l ih =>
    rw [keptOps_cons, List.map_append, List.flatten_append, ih, List.map_cons, List.flatten_cons, dotted_norm]
    cases norm t <;> simp

theorem lastComp_of_base {p b : Str} (h : IsBase p b) : lastComp p = b := by
  obtain ⟨h1, rfl | ⟨d, rfl⟩⟩ := h
  · exact lastComp_noslash h1
  · exact lastComp_slash d h1

theorem choiceFile_eq {outDir pre base : Str} (hb : IsBase pre base) (c : Choice) :
    choiceFile outDir (coreDescr pre) c = coreFile outDir base c := by
  unfold choiceFile spaceFile coreDescr coreFile
  rw [lastComp_of_base hb, keptOps_cons]
  have : norm (some (cs!"CORE_SS." ++ base)) = some (cs!"CORE_SS." ++ base) := by
    simp [norm]
  rw [this]
  simp only [Option.toList_some, List.singleton_append]
  rw [joinStr_dots, dots_kept]
  simp

/-! ### Documented tokens determine the name -/

/-- What is known about a documented token of a step whose operations begin with one of the letters `cl`. -/
def Tok (cl : List Char) (t : Option Str) : Prop :=
  norm t = none ∨ ∃ c x, norm t = some (c :: x) ∧ c ∈ cl ∧ '.' ∉ c :: x ∧ '/' ∉ c :: x

theorem tok_mk {cl : List Char} {c : Char} {x : Str} (hc : c ∈ cl) (h1 : '.' ∉ c :: x) (h2 : '/' ∉ c :: x) :
    Tok cl (some (c :: x)) := by
  unfold Tok
  cases hn : norm (some (c :: x)) with
  | none => exact Or.inl rfl
  | some y =>
    have := norm_some hn
    injection this with this
    subst this
    exact Or.inr ⟨c, x, rfl, hc, h1, h2⟩

theorem tok_w {t : Option Str} (h : NoneLike t ∨ ∃ a, a ≠ [] ∧ WMeans t a) : Tok ['p', 'e'] t := by
  rcases h with h | ⟨a, ha, h⟩
  · exact Or.inl (norm_noneLike h)
  · cases h with
    | skip => exact absurd rfl ha
    | named hm =>
      simp only [weightingTable, List.mem_cons, Prod.mk.injEq, List.not_mem_nil, or_false] at hm
      rcases hm with ⟨rfl, _⟩ | ⟨rfl, _⟩ | ⟨rfl, _⟩ | ⟨rfl, _⟩ <;> exact tok_mk (by decide) (by decide) (by decide)

theorem tok_n {t : Option Str} (h : NoneLike t ∨ ∃ a, a ≠ [] ∧ NMeans t a) : Tok ['a', 'r'] t := by
  rcases h with h | ⟨a, ha, h⟩
  · exact Or.inl (norm_noneLike h)
  · cases h with
    | skip => exact absurd rfl ha
    | named hm =>
      simp only [normalizationTable, List.mem_cons, Prod.mk.injEq, List.not_mem_nil, or_false] at hm
      rcases hm with ⟨rfl, _⟩ | ⟨rfl, _⟩ <;> exact tok_mk (by decide) (by decide) (by decide)

theorem tok_s {t : Option Str} (h : NoneLike t ∨ ∃ a, a ≠ [] ∧ SMeans t a) : Tok ['t'] t := by
  rcases h with h | ⟨a, ha, h⟩
  · exact Or.inl (norm_noneLike h)
  · cases h with
    | skip => exact absurd rfl ha
    | named hm _ hi _ =>
      have h1 := pyInt_noc hi (Or.inl rfl)
      have h2 := pyInt_noc hi (Or.inr rfl)
      simp only [selectionTable, List.mem_cons, Prod.mk.injEq, List.not_mem_nil, or_false] at hm
      rcases hm with ⟨rfl, _⟩ | ⟨rfl, _⟩ <;> exact tok_mk (by decide) (by simp [h1]) (by simp [h2])

theorem tok_r {t : Option Str} (h : NoneLike t ∨ ∃ a, a ≠ [] ∧ RMeans t a) : Tok ['s', 'n'] t := by
  rcases h with h | ⟨a, ha, h⟩
  · exact Or.inl (norm_noneLike h)
  · cases h with
    | skip => exact absurd rfl ha
    | svd _ hi _ =>
      have h1 := pyInt_noc hi (Or.inl rfl)
      have h2 := pyInt_noc hi (Or.inr rfl)
      exact tok_mk (by decide) (by simp [h1]) (by simp [h2])
    | nmf _ _ hi _ =>
      have h1 := pyInt_noc hi (Or.inl rfl)
      have h2 := pyInt_noc hi (Or.inr rfl)
      exact tok_mk (by decide) (by simp [h1]) (by simp [h2])

/-- The `.`-separated tokens are determined by the text. -/
theorem dots_inj : ∀ (a b : List Str), (∀ t ∈ a, '.' ∉ t) → (∀ t ∈ b, '.' ∉ t) →
    (a.map (fun t => '.' :: t)).flatten = (b.map (fun t => '.' :: t)).flatten → a = b := by
  intro a b ha hb h
  have e : ∀ l : List Str, (∀ t ∈ l, '.' ∉ t) → splitCh '.' ((l.map (fun t => '.' :: t)).flatten) = [] :: l := by
    intro l
    induction l using List.reverseRecOn with
    | nil => intro _; rfl
    | append_singleton l x ih =>
      intro hl
      rw [List.map_append, List.flatten_append]
      have : (List.map (fun t => '.' :: t) [x]).flatten = '.' :: x := by simp
      rw [this, splitCh_sep, ih (fun t ht => hl t (by simp [ht])), splitCh_noc (hl x (by simp))]
      rfl
  have h1 := e a ha
  rw [h, e b hb] at h1
  injection h1 with _ h1
  exact h1.symm

/-- The kept token of a step, found by its first letter. -/
def findTok (cl : List Char) (l : List Str) : Option Str := l.find? (fun t => match t with
  | c :: _ => decide (c ∈ cl)
  | [] => false)

theorem findTok_append (cl : List Char) (a b : List Str) :
    findTok cl (a ++ b) = (findTok cl a).or (findTok cl b) := by
  unfold findTok; rw [List.find?_append]

theorem findTok_same {cl : List Char} {t : Option Str} (h : Tok cl t) : findTok cl (norm t).toList = norm t := by
  rcases h with h | ⟨c, x, h, hc, _⟩
  · rw [h]; rfl
  · rw [h]; simp [findTok, hc]

theorem findTok_other {cl cl' : List Char} (hd : ∀ c ∈ cl', c ∉ cl) {t : Option Str} (h : Tok cl' t) :
    findTok cl (norm t).toList = none := by
  rcases h with h | ⟨c, x, h, hc, _⟩
  · rw [h]; rfl
  · rw [h]; simp [findTok, hd c hc]

/-- The tokens of a choice that appear in the name. -/
def Choice.kept (c : Choice) : List Str := (norm c.w).toList ++ ((norm c.s).toList ++ ((norm c.r).toList ++ (norm c.n).toList))

theorem kept_find {c : Choice} (h : c.Documented) :
    findTok ['p', 'e'] c.kept = norm c.w ∧ findTok ['t'] c.kept = norm c.s ∧ findTok ['s', 'n'] c.kept = norm c.r ∧
      findTok ['a', 'r'] c.kept = norm c.n := by
  have a := tok_w h.w
  have b := tok_s h.s
  have d := tok_r h.r
  have e := tok_n h.n
  simp only [Choice.kept, findTok_append]
  rw [findTok_same a, findTok_other (cl := ['p', 'e']) (by decide) b, findTok_other (cl := ['p', 'e']) (by decide) d,
    findTok_other (cl := ['p', 'e']) (by decide) e, findTok_other (cl := ['t']) (by decide) a, findTok_same b,
    findTok_other (cl := ['t']) (by decide) d, findTok_other (cl := ['t']) (by decide) e,
    findTok_other (cl := ['s', 'n']) (by decide) a, findTok_other (cl := ['s', 'n']) (by decide) b, findTok_same d,
    findTok_other (cl := ['s', 'n']) (by decide) e, findTok_other (cl := ['a', 'r']) (by decide) a,
    findTok_other (cl := ['a', 'r']) (by decide) b, findTok_other (cl := ['a', 'r']) (by decide) d, findTok_same e]
  simp

theorem kept_noc {c : Choice} (h : c.Documented) : ∀ t ∈ c.kept, '.' ∉ t ∧ '/' ∉ t := by
  have key : ∀ {cl : List Char} {t : Option Str}, Tok cl t → ∀ x ∈ (norm t).toList, '.' ∉ x ∧ '/' ∉ x := by
    intro cl t ht x hx
    rcases ht with ht | ⟨c, y, ht, _, h1, h2⟩
    · rw [ht] at hx; cases hx
    · rw [ht] at hx
      simp only [Option.toList_some, List.mem_singleton] at hx
      subst hx; exact ⟨h1, h2⟩
  intro t ht
  simp only [Choice.kept, List.mem_append] at ht
  rcases ht with ht | ht | ht | ht
  · exact key (tok_w h.w) t ht
  · exact key (tok_s h.s) t ht
  · exact key (tok_r h.r) t ht
  · exact key (tok_n h.n) t ht

theorem dotted_kept (c : Choice) :
    dotted c.w ++ dotted c.s ++ dotted c.r ++ dotted c.n = (c.kept.map (fun t => '.' :: t)).flatten := by
  simp only [Choice.kept, dotted_norm]
  cases norm c.w <;> cases norm c.s <;> cases norm c.r <;> cases norm c.n <;> simp

theorem coreFile_kept (outDir base : Str) (c : Choice) : coreFile outDir base c =
    outDir ++ '/' :: (cs!"CORE_SS." ++ base ++ (c.kept.map (fun t => '.' :: t)).flatten) := by
  rw [← dotted_kept]
  simp [coreFile]

theorem coreFile_resolve (fs : Fs) {outDir base : Str} (hb : '/' ∉ base) {c : Choice} (h : c.Documented) :
    fs.resolve (coreFile outDir base c ++ cs!".pkl") =
      fs.resolve (outDir ++ ['/']) ++ [cs!"CORE_SS." ++ base ++ (c.kept.map (fun t => '.' :: t)).flatten ++ cs!".pkl"] := by
  have hs : '/' ∉ cs!"CORE_SS." ++ base ++ (c.kept.map (fun t => '.' :: t)).flatten ++ cs!".pkl" := by
    have hk := kept_noc h
    simp only [List.mem_append, not_or, List.mem_flatten, List.mem_map, not_exists, not_and]
    refine ⟨⟨⟨by decide, hb⟩, ?_⟩, by decide⟩
    rintro x ⟨t, ht, rfl⟩ hx
    rcases List.mem_cons.1 hx with hx | hx
    · cases hx
    · exact (hk t ht).2 hx
  have hp : ∀ o : Str, pathComps (o ++ ['/']) = pathComps o := fun o => by
    rw [pathComps_slash]; simp
  have habs : isAbs (coreFile outDir base c ++ cs!".pkl") = isAbs (outDir ++ ['/']) := by
    rw [coreFile_kept]
    unfold isAbs
    cases outDir <;> simp
  have hcomps : pathComps (coreFile outDir base c ++ cs!".pkl") = pathComps (outDir ++ ['/']) ++
      [cs!"CORE_SS." ++ base ++ (c.kept.map (fun t => '.' :: t)).flatten ++ cs!".pkl"] := by
    rw [coreFile_kept, hp]
    have : outDir ++ '/' :: (cs!"CORE_SS." ++ base ++ (c.kept.map (fun t => '.' :: t)).flatten) ++ cs!".pkl"
        = outDir ++ '/' :: (cs!"CORE_SS." ++ base ++ (c.kept.map (fun t => '.' :: t)).flatten ++ cs!".pkl") := by simp
    rw [this, pathComps_slash, pathComps_noslash hs, if_neg (by simp)]
  unfold Fs.resolve
  rw [habs, hcomps]
  split <;> simp

/-- Documented choices with the same file ask for the same operations. -/
theorem coreFile_inj (fs : Fs) {outDir base : Str} (hb : '/' ∉ base) {c d : Choice} (hc : c.Documented)
    (hd : d.Documented)
    (h : fs.resolve (coreFile outDir base c ++ cs!".pkl") = fs.resolve (coreFile outDir base d ++ cs!".pkl")) :
    c.Same d := by
  rw [coreFile_resolve fs hb hc, coreFile_resolve fs hb hd] at h
  obtain ⟨_, h⟩ := List.append_inj' h rfl
  injection h with h
  have h := List.append_cancel_right h
  have h := List.append_cancel_left h
  have h := dots_inj _ _ (fun t ht => (kept_noc hc t ht).1) (fun t ht => (kept_noc hd t ht).1) h
  obtain ⟨a1, a2, a3, a4⟩ := kept_find hc
  obtain ⟨b1, b2, b3, b4⟩ := kept_find hd
  refine ⟨sameOpt_of_norm ?_, sameOpt_of_norm ?_, sameOpt_of_norm ?_, sameOpt_of_norm ?_⟩
  · rw [← a1, ← b1, h]
  · rw [← a2, ← b2, h]
  · rw [← a3, ← b3, h]
  · rw [← a4, ← b4, h]

/-! ### Same choices, same results -/

theorem wskip {t : Option Str} (h : NoneLike t) {a : List Trans} : WMeans t a ↔ a = [] := by
  constructor
  · intro hm
    cases hm with
    | skip => rfl
    | named hx =>
      simp only [weightingTable, List.mem_cons, Prod.mk.injEq, List.not_mem_nil, or_false] at hx
      rcases hx with ⟨rfl, _⟩ | ⟨rfl, _⟩ | ⟨rfl, _⟩ | ⟨rfl, _⟩ <;>
      · rcases h with h | h | h <;> simp at h
  · rintro rfl
    refine .skip ?_
    rcases h with rfl | rfl | rfl <;> decide

theorem nskip {t : Option Str} (h : NoneLike t) {a : List Trans} : NMeans t a ↔ a = [] := by
  constructor
  · intro hm
    cases hm with
    | skip => rfl
    | named hx =>
      simp only [normalizationTable, List.mem_cons, Prod.mk.injEq, List.not_mem_nil, or_false] at hx
      rcases hx with ⟨rfl, _⟩ | ⟨rfl, _⟩ <;>
      · rcases h with h | h | h <;> simp at h
  · rintro rfl
    refine .skip ?_
    rcases h with rfl | rfl | rfl <;> decide

theorem sskip {t : Option Str} (h : NoneLike t) {a : List Trans} : SMeans t a ↔ a = [] := by
  constructor
  · intro hm
    cases hm with
    | skip => rfl
    | named hx =>
      simp only [selectionTable, List.mem_cons, Prod.mk.injEq, List.not_mem_nil, or_false] at hx
      rcases hx with ⟨rfl, _⟩ | ⟨rfl, _⟩ <;>
      · rcases h with h | h | h <;> simp at h
  · rintro rfl
    refine .skip ?_
    intro x hx d hd
    simp only [selectionTable, List.mem_cons, List.not_mem_nil, or_false] at hx
    rcases hx with rfl | rfl <;> rcases h with rfl | rfl | rfl <;> simp

theorem rskip {t : Option Str} (h : NoneLike t) {a : List Trans} : RMeans t a ↔ a = [] := by
  constructor
  · intro hm
    cases hm with
    | skip => rfl
    | svd => rcases h with h | h | h <;> simp at h
    | nmf => rcases h with h | h | h <;> simp at h
  · rintro rfl
    refine .skip ?_
    intro x hx d hd
    simp only [List.mem_cons, List.not_mem_nil, or_false] at hx
    rcases hx with rfl | rfl <;> rcases h with rfl | rfl | rfl <;> simp

theorem Choice.Same.result {env : Env} {input res : Space Str} {c d : Choice} (h : c.Same d)
    (hr : d.Result env input res) : c.Result env input res := by
  obtain ⟨a, b, e, f, h1, h2, h3, h4, h5⟩ := hr
  obtain ⟨s1, s2, s3, s4⟩ := h
  refine ⟨a, b, e, f, ?_, ?_, ?_, ?_, h5⟩
  · rcases s1 with s | ⟨x, y⟩
    · rw [s]; exact h1
    · rw [wskip x]; exact (wskip y).1 h1
  · rcases s2 with s | ⟨x, y⟩
    · rw [s]; exact h2
    · rw [sskip x]; exact (sskip y).1 h2
  · rcases s3 with s | ⟨x, y⟩
    · rw [s]; exact h3
    · rw [rskip x]; exact (rskip y).1 h3
  · rcases s4 with s | ⟨x, y⟩
    · rw [s]; exact h4
    · rw [nskip x]; exact (nskip y).1 h4

end
end Dissect
