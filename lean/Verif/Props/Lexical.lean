import Verif.Lemmas.Lexical
import Verif.Props.Partitions
import Verif.Props.Regression

/-! # Lexical functions (C45, C46) -/

namespace Dissect
open Finset
noncomputable section
variable {κ : Type} [DecidableEq κ]

/-- **C45** composing with a lexical function model whose functions are tensors of any order of at least two
(`sh ++ [last]`, `sh` non-empty): the labels are the phrase strings of exactly the triples whose words are known, in
input order; each row is the matrix of the function word (its row read row-major with `last` columns) times the argument
vector, plus the last matrix column with intercept; the last dimension of the element shape is dropped. -/
theorem C45_compose (m : LexFun κ) (fs arg : Space κ) (data : List (Triple κ)) (sh : List ℕ)
    (hm : m.functions = some fs) (hf : fs.WF) (ha : arg.WF) (hsh : sh ≠ []) (hpos : 0 < sh.prod) (hn : 0 < arg.mat.nc)
    (hs : fs.elemShape = sh ++ [if m.intercept then arg.mat.nc + 1 else arg.mat.nc])
    (hcn : m.columns.Nodup) (hcl : m.columns ≠ [] → m.columns.length = sh.prod)
    (hv : knownTriples fs arg data ≠ []) (hnd : ((knownTriples fs arg data).map (·.2.2)).Nodup) :
    ∃ r, m.compose data arg = .ok r ∧ r.WF ∧ r.id2row = (knownTriples fs arg data).map (·.2.2) ∧ r.elemShape = sh ∧
      r.id2col = m.columns ∧
      ∀ (k : ℕ) (f w phrase : κ), (knownTriples fs arg data)[k]? = some (f, w, phrase) → ∀ j < sh.prod,
        r.mat.val.get k j = lexVec arg.mat.nc m.intercept (fs.vecOf f) (arg.vecOf w) j := by
  have hmem : ∀ t ∈ knownTriples fs arg data, t.1 ∈ fs.id2row ∧ t.2.1 ∈ arg.id2row := by
    intro t ht
    rw [knownTriples, List.mem_filter] at ht
    simpa using ht.2
  have hdata : data ≠ [] := by
    rintro rfl
    exact hv rfl
  obtain ⟨vs, i1, i2, i3, i4⟩ := lexLoop_ok m.intercept hf ha sh hsh hs hn hpos (knownTriples fs arg data) hmem
  have hvs : vs ≠ [] := by
    intro h
    rw [h] at i2
    exact hv (List.length_eq_zero_iff.1 i2.symm)
  obtain ⟨M, e, m1, m2, gM⟩ := naryVstack_ok hpos vs hvs i3
  have hlast : stackLast vs = .ok ⟨if fs.mat.nc < arg.mat.nc then arg.mat.ty else fs.mat.ty, M⟩ := by
    unfold stackLast
    rw [List.getLast?_eq_some_getLast hvs]
    simp only
    rw [(i3 _ (List.getLast_mem hvs)).1, e]
  obtain ⟨r, hr⟩ := Space.resolveMap_none hnd
  obtain ⟨d, hd⟩ := Space.resolveMap_none hcn
  have hnew := Space.new_ok (m := ⟨if fs.mat.nc < arg.mat.nc then arg.mat.ty else fs.mat.ty, M⟩) (ops := [])
    (sh := some sh) hr hd (by rw [List.length_map]; exact m1.trans i2) (fun h => m2.trans (hcl h).symm)
    (by intro s hs; injection hs with hs; subst hs; exact m2.symm)
  obtain ⟨_, e2, e3, _, e5, _, _, wf⟩ := Space.new_eq_ok hnew
  refine ⟨_, ?_, wf, e2, e5, e3, ?_⟩
  · unfold LexFun.compose
    rw [hm]
    simp only
    rw [validData_eq _ _ _ data (knownTriples fs arg data) (by rw [knownTriples_eq hf ha]), if_neg hdata, if_neg hv, ok_bind]
    simp only
    rw [i1, ok_bind, hlast, ok_bind, hs, List.dropLast_concat]
    exact hnew
  · intro k f w phrase hk j hj
    obtain ⟨u, hu⟩ : ∃ u, vs[k]? = some u := by
      have hlt : k < (knownTriples fs arg data).length := by
        by_contra hc
        rw [List.getElem?_eq_none (by omega)] at hk
        cases hk
      exact ⟨vs[k], List.getElem?_eq_getElem (by omega)⟩
    rw [← i4 k _ u hk hu j hj]
    exact gM k u j hu

/-- **C45** composing does not change the model, in particular not its function space: the result is determined by the
model and the arguments alone (`compose` returns only a new space), and an untrained model raises `AttributeError`. -/
theorem C45_untrained (m : LexFun κ) (arg : Space κ) (data : List (Triple κ)) (hm : m.functions = none) :
    m.compose data arg = .error .attributeError := by
  unfold LexFun.compose
  rw [hm]

/-- **C45** without a usable triple (and at least one triple): `ValueError`. -/
theorem C45_no_known_triple (m : LexFun κ) (fs arg : Space κ) (data : List (Triple κ)) (hm : m.functions = some fs)
    (hf : fs.WF) (ha : arg.WF) (hd : data ≠ []) (hv : knownTriples fs arg data = []) :
    m.compose data arg = .error .valueError := by
  unfold LexFun.compose
  rw [hm]
  simp only
  rw [validData_eq _ _ _ data [] (by rw [← hv, knownTriples_eq hf ha]), if_neg hd, if_pos rfl]
  rfl

/-! ## C46 -/

/-- The samples of `f` found after sorting are the samples of `f` in input order. -/
theorem sorted_samples {le : κ → κ → Bool} (htrans : ∀ a b c, le a b = true → le b c = true → le a c = true)
    (htotal : ∀ a b, (le a b || le b a) = true) {arg phrase : Space κ} (ha : arg.WF) (hp : phrase.WF)
    (data : List (Triple κ)) (f : κ) :
    ((data.mergeSort (fun x y => le x.1 y.1)).filter (fun t =>
      knownIn none t.1 && knownIn (some arg.row2id) t.2.1 && knownIn (some phrase.row2id) t.2.2)).filter
        (fun t => decide (t.1 = f)) = lexSamples arg phrase data f := by
  have hrefl : ∀ a, le a a = true := fun a => by simpa using htotal a a
  rw [List.filter_filter, stable_filter (fun x y : Triple κ => le x.1 y.1) (fun a b c => htrans _ _ _)
    (fun a b => htotal _ _)]
  · unfold lexSamples
    refine List.filter_congr (fun t _ => ?_)
    simp [knownIn, ha.rows.contains, hp.rows.contains, Bool.decide_and]
  · intro x y hx hy
    rw [Bool.and_eq_true, decide_eq_true_eq] at hx hy
    rw [hx.1, hy.1]
    exact hrefl f

/-- **C46** training lexical functions, for every training list (in any order), every learner, every threshold of at least
one and every total order on strings: the learned functions are exactly the words with at least `MIN_SAMPLES` usable
samples (in sorted order); the function of a word is the one the learner finds for exactly the (argument, phrase) rows of
that word's usable samples in input order: applying it to any vector gives the regression prediction. -/
theorem C46_train (env : Env) (le : κ → κ → Bool) (htrans : ∀ a b c, le a b = true → le b c = true → le a c = true)
    (htotal : ∀ a b, (le a b || le b a) = true) (hanti : ∀ a b, le a b = true → le b a = true → a = b)
    (m : LexFun κ) (data : List (Triple κ)) (arg phrase : Space κ) (ha : arg.WF) (hp : phrase.WF)
    (na : 0 < arg.mat.nc) (np : 0 < phrase.mat.nc) (hsh : arg.elemShape = [arg.mat.nc]) (hms : 1 ≤ m.minSamples)
    (hex : ∃ f, m.minSamples ≤ ((lexSamples arg phrase data f).length : ℤ)) (X : κ → TMat ℝ)
    (hX : ∀ f, m.minSamples ≤ ((lexSamples arg phrase data f).length : ℤ) →
      m.learner.train env ⟨lexTy arg phrase, argRows arg (lexSamples arg phrase data f)⟩
        ⟨lexTy arg phrase, phraseRows phrase (lexSamples arg phrase data f)⟩ = .ok (X f) ∧
      (X f).ty = lexTy arg phrase ∧
      (X f).nr = (if m.learner.hasIntercept then arg.mat.nc + 1 else arg.mat.nc) ∧ (X f).nc = phrase.mat.nc) :
    ∃ m' fs, m.train env le data arg phrase = .ok m' ∧ m'.functions = some fs ∧ fs.WF ∧
      m'.columns = phrase.id2col ∧ m'.intercept = m.learner.hasIntercept ∧
      fs.elemShape = phrase.elemShape ++ [if m.learner.hasIntercept then arg.mat.nc + 1 else arg.mat.nc] ∧
      (∀ f, f ∈ fs.id2row ↔ m.minSamples ≤ ((lexSamples arg phrase data f).length : ℤ)) ∧
      fs.id2row.Pairwise (fun a b => le a b = true) ∧
      ∀ f ∈ fs.id2row, ∀ v, ∀ j < phrase.mat.nc, lexVec arg.mat.nc m.learner.hasIntercept (fs.vecOf f) v j =
        predictVec arg.mat.nc (X f).val.get m.learner.hasIntercept v j := by
  set v := (data.mergeSort (fun x y => le x.1 y.1)).filter (fun t =>
      knownIn none t.1 && knownIn (some arg.row2id) t.2.1 && knownIn (some phrase.row2id) t.2.2) with hv
  have hsamp : ∀ f, v.filter (fun t => decide (t.1 = f)) = lexSamples arg phrase data f :=
    sorted_samples htrans htotal ha hp data
  have hvm : ∀ t ∈ v, t.2.1 ∈ arg.id2row ∧ t.2.2 ∈ phrase.id2row := by
    intro t ht
    have := (List.mem_filter.1 ht).2
    simpa [knownIn, ha.rows.contains, hp.rows.contains] using this
  have hsort : (v.map (·.1)).Pairwise (fun a b => le a b = true) := by
    rw [List.pairwise_map]
    exact (List.pairwise_mergeSort (le := fun x y : Triple κ => le x.1 y.1) (fun a b c => htrans _ _ _)
      (fun a b => htotal _ _) data).filter _
  obtain ⟨keys, ranges, g1, g2, g3, g4, g5, g6⟩ := partitions_sorted hanti v hsort m.minSamples hms
  simp only [hsamp] at g5 g6
  have hvne : v ≠ [] := by
    intro h
    obtain ⟨f, hf⟩ := hex
    rw [← hsamp, h] at hf
    simp at hf
    omega
  have hkne : keys ≠ [] := by
    intro h
    obtain ⟨f, hf⟩ := hex
    have := (g5 f).2 hf
    rw [h] at this
    cases this
  have hsd : data.mergeSort (fun x y => le x.1 y.1) ≠ [] := by
    intro h
    rw [hv, h] at hvne
    exact hvne rfl
  set ic := m.learner.hasIntercept with hic
  set w := if ic then arg.mat.nc + 1 else arg.mat.nc with hw
  have hwpos : 0 < w := by rw [hw]; split <;> omega
  have hprod : (phrase.elemShape ++ [w]).prod = phrase.mat.nc * w := by
    rw [List.prod_append, List.prod_singleton, hp.shape]
  obtain ⟨rs, i1, i2, i3, i4⟩ := lexTrainLoop_ok env m.learner ha hp na np v w hwpos X hvm keys ranges g2
    (by simpa only [hsamp] using g6)
    (by
      intro f hf
      rw [hsamp]
      have hc := (g5 f).1 hf
      refine ⟨?_, hX f hc⟩
      intro h
      rw [h] at hc
      simp at hc
      omega)
  have hrs : rs ≠ [] := by
    intro h
    rw [h] at i2
    exact hkne (List.length_eq_zero_iff.1 i2.symm)
  obtain ⟨M, e, m1, m2, gM⟩ := naryVstack_ok (ty := lexTy arg phrase) (w := phrase.mat.nc * w) (Nat.mul_pos np hwpos)
    (rs.map Prod.fst) (by simpa using hrs) (by
      intro u hu
      obtain ⟨r, hr, rfl⟩ := List.mem_map.1 hu
      exact (i3 r hr).2)
  obtain ⟨rd, hr⟩ := Space.resolveMap_none g3
  obtain ⟨cd, hc⟩ := Space.resolveMap_none (l := ([] : List κ)) List.nodup_nil
  have hnew := Space.new_ok (m := ⟨lexTy arg phrase, M⟩) (ops := []) (sh := some (phrase.elemShape ++ [w])) hr hc
    (by rw [show (⟨lexTy arg phrase, M⟩ : TMat ℝ).nr = M.nr from rfl, m1, List.length_map, i2]) (by simp)
    (by intro s hs; injection hs with hs; subst hs; rw [hprod]; exact m2.symm)
  obtain ⟨_, e2, _, _, e5, _, _, wf⟩ := Space.new_eq_ok hnew
  refine ⟨⟨m.learner, phrase.id2col, some _, ic, m.minSamples⟩, _, ?_, rfl, wf, rfl, rfl, e5, ?_, ?_, ?_⟩
  · unfold LexFun.train
    simp only
    rw [validData_eq none (some arg.row2id) (some phrase.row2id) _ v hv, if_neg hsd, if_neg hvne, ok_bind]
    simp only
    rw [g1, ok_bind]
    simp only
    rw [if_neg hkne, hsh]
    simp only
    rw [hprod, i1, ok_bind, List.getLast?_eq_some_getLast hrs]
    simp only
    rw [(i3 _ (List.getLast_mem hrs)).1, e, ok_bind, hnew, ok_bind]
    rfl
  · intro f
    exact g5 f
  · exact g4
  · intro f hf u j hj
    have hf' : f ∈ keys := hf
    obtain ⟨k, hk, hkf⟩ := List.mem_iff_getElem.1 hf'
    have hk' : keys[k]? = some f := by rw [List.getElem?_eq_getElem hk, hkf]
    have hrk : rs[k]? = some rs[k] := List.getElem?_eq_getElem (by omega)
    have hvec : ∀ i, i < w → M.get k (j * w + i) = (X f).val.get i j := by
      intro i hi
      rw [gM k rs[k].1 _ (by rw [List.getElem?_map, hrk]; rfl)]
      exact i4 k f rs[k] hk' hrk j i hj hi
    rw [Space.vecOf_word wf (i := k) (w := f) hk']
    simp only [lexVec, predictVec, ← hw]
    congr 1
    · refine Finset.sum_congr rfl (fun i hi => ?_)
      have hi' := Finset.mem_range.1 hi
      rw [hvec i (by rw [hw]; split <;> omega), mul_comm]
    · split
      · rename_i h
        rw [hvec _ (by rw [hw, if_pos h]; omega)]
      · rfl

/-- **C46** training and then composing: every known pair gets the prediction of the regression solution learned from
exactly the samples of its function word. -/
theorem C46_train_compose (env : Env) (le : κ → κ → Bool) (htrans : ∀ a b c, le a b = true → le b c = true → le a c = true)
    (htotal : ∀ a b, (le a b || le b a) = true) (hanti : ∀ a b, le a b = true → le b a = true → a = b)
    (m : LexFun κ) (data : List (Triple κ)) (arg phrase : Space κ) (ha : arg.WF) (hp : phrase.WF)
    (na : 0 < arg.mat.nc) (np : 0 < phrase.mat.nc) (hsh : arg.elemShape = [arg.mat.nc]) (hpsh : phrase.elemShape ≠ [])
    (hms : 1 ≤ m.minSamples)
    (hex : ∃ f, m.minSamples ≤ ((lexSamples arg phrase data f).length : ℤ)) (X : κ → TMat ℝ)
    (hX : ∀ f, m.minSamples ≤ ((lexSamples arg phrase data f).length : ℤ) →
      m.learner.train env ⟨lexTy arg phrase, argRows arg (lexSamples arg phrase data f)⟩
        ⟨lexTy arg phrase, phraseRows phrase (lexSamples arg phrase data f)⟩ = .ok (X f) ∧
      (X f).ty = lexTy arg phrase ∧
      (X f).nr = (if m.learner.hasIntercept then arg.mat.nc + 1 else arg.mat.nc) ∧ (X f).nc = phrase.mat.nc)
    (test : List (Triple κ)) (arg' : Space κ) (ha' : arg'.WF) (hn' : arg'.mat.nc = arg.mat.nc)
    (known : List (Triple κ))
    (hknown : known = test.filter (fun t => decide
      (m.minSamples ≤ ((lexSamples arg phrase data t.1).length : ℤ) ∧ t.2.1 ∈ arg'.id2row)))
    (hne : known ≠ []) (hnd : (known.map (·.2.2)).Nodup) :
    ∃ m' r, m.train env le data arg phrase = .ok m' ∧ m'.compose test arg' = .ok r ∧ r.WF ∧
      r.id2row = known.map (·.2.2) ∧ r.id2col = phrase.id2col ∧ r.elemShape = phrase.elemShape ∧
      ∀ (k : ℕ) (f w ph : κ), known[k]? = some (f, w, ph) → ∀ j < phrase.mat.nc,
        r.mat.val.get k j = predictVec arg.mat.nc (X f).val.get m.learner.hasIntercept (arg'.vecOf w) j := by
  obtain ⟨m', fs, t1, t2, t3, t4, t5, t6, t7, _, t9⟩ := C46_train env le htrans htotal hanti m data arg phrase ha hp na np
    hsh hms hex X hX
  have hk : knownTriples fs arg' test = known := by
    rw [hknown, knownTriples]
    refine List.filter_congr (fun t _ => ?_)
    rw [decide_eq_decide, t7]
  obtain ⟨r, r1, r2, r3, r4, r5, r6⟩ := C45_compose m' fs arg' test phrase.elemShape t2 t3 ha' hpsh
    (by rw [hp.shape]; exact np) (by omega) (by rw [t6, t5, hn']) (by rw [t4]; exact hp.cols.nodup)
    (by rw [t4, hp.shape]; exact fun h => (hp.ncols h).symm) (by rw [hk]; exact hne) (by rw [hk]; exact hnd)
  rw [hk] at r3 r6
  refine ⟨m', r, t1, r1, r2, r3, r5.trans t4, r4, ?_⟩
  intro k f w ph hkk j hj
  rw [r6 k f w ph hkk j (by rw [hp.shape]; exact hj), hn', t5]
  have hmem : (f, w, ph) ∈ knownTriples fs arg' test := by rw [hk]; exact List.mem_of_getElem? hkk
  rw [knownTriples, List.mem_filter, decide_eq_true_eq] at hmem
  exact t9 f hmem.2.1 _ j hj

/-- **C46** when no word has enough usable samples (and there is some data), training raises `ValueError`. -/
theorem C46_no_function (env : Env) (le : κ → κ → Bool) (htrans : ∀ a b c, le a b = true → le b c = true → le a c = true)
    (htotal : ∀ a b, (le a b || le b a) = true) (hanti : ∀ a b, le a b = true → le b a = true → a = b)
    (m : LexFun κ) (data : List (Triple κ)) (arg phrase : Space κ) (ha : arg.WF) (hp : phrase.WF) (hd : data ≠ [])
    (hms : 1 ≤ m.minSamples) (hex : ¬ ∃ f, m.minSamples ≤ ((lexSamples arg phrase data f).length : ℤ)) :
    m.train env le data arg phrase = .error .valueError := by
  set v := (data.mergeSort (fun x y => le x.1 y.1)).filter (fun t =>
      knownIn none t.1 && knownIn (some arg.row2id) t.2.1 && knownIn (some phrase.row2id) t.2.2) with hv
  have hsamp : ∀ f, v.filter (fun t => decide (t.1 = f)) = lexSamples arg phrase data f :=
    sorted_samples htrans htotal ha hp data
  have hsort : (v.map (·.1)).Pairwise (fun a b => le a b = true) := by
    rw [List.pairwise_map]
    exact (List.pairwise_mergeSort (le := fun x y : Triple κ => le x.1 y.1) (fun a b c => htrans _ _ _)
      (fun a b => htotal _ _) data).filter _
  have hsd : data.mergeSort (fun x y => le x.1 y.1) ≠ [] := by
    intro h
    have := (List.mergeSort_perm data (fun x y => le x.1 y.1)).length_eq
    rw [h] at this
    exact hd (List.length_eq_zero_iff.1 this.symm)
  obtain ⟨keys, ranges, g1, g2, g3, g4, g5, g6⟩ := partitions_sorted hanti v hsort m.minSamples hms
  have hk : keys = [] := by
    rw [List.eq_nil_iff_forall_not_mem]
    intro f hf
    rw [g5, hsamp] at hf
    exact hex ⟨f, hf⟩
  unfold LexFun.train
  simp only
  rw [validData_eq none (some arg.row2id) (some phrase.row2id) _ v hv, if_neg hsd]
  by_cases hvne : v = []
  · rw [if_pos hvne]
    rfl
  · rw [if_neg hvne, ok_bind]
    simp only
    rw [g1, ok_bind]
    simp only
    rw [if_pos hk]

/-- **C46** argument vectors that are themselves tensors (an argument space whose elements are not one-dimensional) cannot
be used for training: `AssertionError`, when some word has enough samples. -/
theorem C46_tensor_arguments (env : Env) (le : κ → κ → Bool) (htrans : ∀ a b c, le a b = true → le b c = true → le a c = true)
    (htotal : ∀ a b, (le a b || le b a) = true) (hanti : ∀ a b, le a b = true → le b a = true → a = b)
    (m : LexFun κ) (data : List (Triple κ)) (arg phrase : Space κ) (ha : arg.WF) (hp : phrase.WF)
    (hms : 1 ≤ m.minSamples) (hex : ∃ f, m.minSamples ≤ ((lexSamples arg phrase data f).length : ℤ))
    (hsh : arg.elemShape.length ≠ 1) : m.train env le data arg phrase = .error .assertionError := by
  set v := (data.mergeSort (fun x y => le x.1 y.1)).filter (fun t =>
      knownIn none t.1 && knownIn (some arg.row2id) t.2.1 && knownIn (some phrase.row2id) t.2.2) with hv
  have hsamp : ∀ f, v.filter (fun t => decide (t.1 = f)) = lexSamples arg phrase data f :=
    sorted_samples htrans htotal ha hp data
  have hsort : (v.map (·.1)).Pairwise (fun a b => le a b = true) := by
    rw [List.pairwise_map]
    exact (List.pairwise_mergeSort (le := fun x y : Triple κ => le x.1 y.1) (fun a b c => htrans _ _ _)
      (fun a b => htotal _ _) data).filter _
  obtain ⟨keys, ranges, g1, -, -, -, g5, -⟩ := partitions_sorted hanti v hsort m.minSamples hms
  obtain ⟨f, hf⟩ := hex
  have hk : keys ≠ [] := by
    rintro rfl
    exact absurd ((g5 f).2 (by rw [hsamp]; exact hf)) (by simp)
  have hvne : v ≠ [] := by
    intro h
    rw [← hsamp, h] at hf
    simp at hf
    omega
  have hsd : data.mergeSort (fun x y => le x.1 y.1) ≠ [] := by
    intro h
    rw [hv, h] at hvne
    exact hvne rfl
  unfold LexFun.train
  simp only
  rw [validData_eq none (some arg.row2id) (some phrase.row2id) _ v hv, if_neg hsd, if_neg hvne, ok_bind]
  simp only
  rw [g1, ok_bind]
  simp only
  rw [if_neg hk]
  rcases hs : arg.elemShape with _ | ⟨n, _ | ⟨k, t⟩⟩
  · rfl
  · rw [hs] at hsh
    exact absurd rfl hsh
  · rfl

/-! ## Non-vacuity -/

theorem exists_space (M : Mat ℝ) (rows : List ℕ) (hn : rows.Nodup) (h : M.nr = rows.length) (sh : Option (List ℕ))
    (hsh : ∀ s, sh = some s → s.prod = M.nc) : ∃ s : Space ℕ, s.WF ∧ s.mat = ⟨.dense, M⟩ ∧ s.id2row = rows ∧
      s.id2col = [] ∧ s.elemShape = sh.getD [M.nc] := by
  obtain ⟨r, hr⟩ := Space.resolveMap_none hn
  obtain ⟨c, hc⟩ := Space.resolveMap_none (l := ([] : List ℕ)) List.nodup_nil
  have hnew := Space.new_ok (m := ⟨.dense, M⟩) (ops := []) (sh := sh) hr hc h (by simp) hsh
  obtain ⟨e1, e2, e3, _, e5, _, _, wf⟩ := Space.new_eq_ok hnew
  exact ⟨_, wf, e1, e2, e3, e5⟩

/-- non-vacuity of C45: a function space with one 2×3 matrix (intercept in the last column). -/
example : ∃ (m : LexFun ℕ) (fs arg : Space ℕ) (data : List (Triple ℕ)) (sh : List ℕ), m.functions = some fs ∧ fs.WF ∧
    arg.WF ∧ sh ≠ [] ∧ 0 < sh.prod ∧ 0 < arg.mat.nc ∧
    fs.elemShape = sh ++ [if m.intercept then arg.mat.nc + 1 else arg.mat.nc] ∧ m.columns.Nodup ∧
    (m.columns ≠ [] → m.columns.length = sh.prod) ∧ knownTriples fs arg data ≠ [] ∧
    ((knownTriples fs arg data).map (·.2.2)).Nodup := by
  obtain ⟨fs, f1, f2, f3, f4, f5⟩ := exists_space (Mat.of 1 6 (fun _ j => (j : ℝ) + 1)) [7] (by simp) rfl (some [2, 3])
    (by rintro s ⟨⟩; rfl)
  obtain ⟨arg, a1, a2, a3, a4, a5⟩ := exists_space (Mat.of 2 2 (fun i j => (i : ℝ) - j)) [8, 9] (by simp) rfl none (by simp)
  have hnc : arg.mat.nc = 2 := by rw [a2]; rfl
  have hk : knownTriples fs arg [(7, 8, 1), (7, 9, 2), (7, 7, 3)] = [(7, 8, 1), (7, 9, 2)] := by
    unfold knownTriples
    rw [f3, a3]
    rfl
  exact ⟨LexFun.ofSpace fs true, fs, arg, [(7, 8, 1), (7, 9, 2), (7, 7, 3)], [2], rfl, f1, a1, by simp, by simp, by omega,
    by rw [f5, hnc]; rfl, by simp [LexFun.ofSpace], by simp [LexFun.ofSpace], by rw [hk]; simp, by rw [hk]; decide⟩

/-- A back end whose least-squares solver always answers `(1)`. -/
def onesEnv : Env := ⟨fun A => .ok (A, [], A), fun A _ => .ok (A, [], A), fun A => .ok A, fun _ _ => .ok (Mat.of 1 1 (fun _ _ => 1))⟩

/-- non-vacuity of C46_tensor_arguments: arguments that are 2×1 matrices. -/
example : ∃ (s : Space ℕ), s.WF ∧ (LexFun.ofLearner (.lstsq true)).train onesEnv (fun a b => decide (a ≤ b))
    [(5, 0, 1)] s s = .error .assertionError := by
  obtain ⟨s, s1, -, s3, -, s5⟩ := exists_space (Mat.of 2 2 (fun _ _ => (1 : ℝ))) [0, 1] (by simp) rfl (some [2, 1])
    (by rintro s ⟨⟩; rfl)
  refine ⟨s, s1, C46_tensor_arguments onesEnv (fun a b => decide (a ≤ b)) ?_ ?_ ?_ (LexFun.ofLearner (.lstsq true)) _ s s s1 s1
    (by simp [LexFun.ofLearner]) ⟨5, ?_⟩ (by rw [s5]; simp)⟩
  · intro a b c h1 h2; simp only [decide_eq_true_eq] at *; omega
  · intro a b; simp only [Bool.or_eq_true, decide_eq_true_eq]; omega
  · intro a b h1 h2; simp only [decide_eq_true_eq] at *; omega
  · have : lexSamples s s [(5, 0, 1)] 5 = [(5, 0, 1)] := by
      unfold lexSamples
      rw [s3]
      rfl
    rw [this]
    simp [LexFun.ofLearner]

/-- non-vacuity of C46: two function words with two and one samples, unsorted; threshold 2; all vectors are `(1)` and the
solver of the back end is right for these problems. -/
example : ∃ (env : Env) (le : ℕ → ℕ → Bool) (m : LexFun ℕ) (data : List (Triple ℕ)) (s : Space ℕ) (X : ℕ → TMat ℝ),
    (∀ a b c, le a b = true → le b c = true → le a c = true) ∧ (∀ a b, (le a b || le b a) = true) ∧
    (∀ a b, le a b = true → le b a = true → a = b) ∧ s.WF ∧ 0 < s.mat.nc ∧ s.elemShape = [s.mat.nc] ∧
    m.minSamples = 2 ∧ lexSamples s s data 5 = [(5, 0, 1), (5, 2, 3)] ∧ lexSamples s s data 3 = [(3, 1, 2)] ∧
    (∃ f, m.minSamples ≤ ((lexSamples s s data f).length : ℤ)) ∧
    (∀ f, m.minSamples ≤ ((lexSamples s s data f).length : ℤ) →
      m.learner.train env ⟨lexTy s s, argRows s (lexSamples s s data f)⟩
        ⟨lexTy s s, phraseRows s (lexSamples s s data f)⟩ = .ok (X f) ∧
      (X f).ty = lexTy s s ∧ (X f).nr = (if m.learner.hasIntercept then s.mat.nc + 1 else s.mat.nc) ∧
      (X f).nc = s.mat.nc) ∧
    (∀ l, (∃ X, env.npLstsq (argRows s l) (phraseRows s l) = .ok X ∧ IsLstsq (argRows s l) (phraseRows s l) X) ∨ ∃ t ∈ l, t.2.1 ∉ s.id2row ∨
      t.2.2 ∉ s.id2row) := by
  obtain ⟨s, s1, s2, s3, s4, s5⟩ := exists_space (Mat.of 4 1 (fun _ _ => (1 : ℝ))) [0, 1, 2, 3] (by simp) rfl none (by simp)
  have hnc : s.mat.nc = 1 := by rw [s2]; rfl
  have hty : lexTy s s = .dense := by
    unfold lexTy
    rw [if_neg (lt_irrefl _), s2]
  have h5 : lexSamples s s [(5, 0, 1), (3, 1, 2), (5, 2, 3), (3, 9, 3)] 5 = [(5, 0, 1), (5, 2, 3)] := by
    unfold lexSamples; rw [s3]; rfl
  have h3 : lexSamples s s [(5, 0, 1), (3, 1, 2), (5, 2, 3), (3, 9, 3)] 3 = [(3, 1, 2)] := by
    unfold lexSamples; rw [s3]; rfl
  refine ⟨onesEnv, fun a b => decide (a ≤ b), ⟨.lstsq false, [], none, false, 2⟩, [(5, 0, 1), (3, 1, 2), (5, 2, 3), (3, 9, 3)],
    s, fun _ => ⟨.dense, Mat.of 1 1 (fun _ _ => 1)⟩, ?_, ?_, ?_, s1, by omega, by rw [s5, hnc]; rfl, rfl, h5, h3,
    ⟨5, by rw [h5]; rfl⟩, ?_, ?_⟩
  · intro a b c h1 h2
    rw [decide_eq_true_eq] at *
    omega
  · intro a b
    simp only [Bool.or_eq_true, decide_eq_true_eq]
    omega
  · intro a b h1 h2
    rw [decide_eq_true_eq] at *
    omega
  · intro f hf
    have hpos : 0 < (lexSamples s s [(5, 0, 1), (3, 1, 2), (5, 2, 3), (3, 9, 3)] f).length := by
      have h2 : (2 : ℤ) ≤ _ := hf
      omega
    refine ⟨?_, hty.symm, hnc.symm, hnc.symm⟩
    simp only [Learner.train, lstsqRegression, hty]
    unfold TMat.assertSameType TMat.assertSameRows
    rw [if_pos rfl, ok_bind, if_pos (show (argRows s _).nr = (phraseRows s _).nr from rfl), ok_bind,
      addOnes_ok _ false hpos, ok_bind]
    exact TMat.ofNumpy_ok (A := Mat.of 1 1 (fun _ _ => (1 : ℝ))) (by simp) (by simp)
  · intro l
    by_cases hl : ∃ t ∈ l, t.2.1 ∉ s.id2row ∨ t.2.2 ∉ s.id2row
    · exact Or.inr hl
    · left
      push Not at hl
      have hv : ∀ w ∈ s.id2row, s.vecOf w 0 = 1 := by
        intro w hw
        unfold Space.vecOf
        rw [s2]
        have : s.id2row.idxOf w < s.id2row.length := List.idxOf_lt_length_of_mem hw
        rw [s3] at this ⊢
        exact Mat.of_get_lt this Nat.one_pos
      refine ⟨Mat.of 1 1 (fun _ _ => 1), rfl, by rw [show (argRows s l).nc = s.mat.nc from rfl, hnc]; rfl,
        by rw [show (phraseRows s l).nc = s.mat.nc from rfl, hnc]; rfl, fun Y => ?_⟩
      have hzero : sqResid (argRows s l) (phraseRows s l) (Mat.of 1 1 (fun _ _ => 1)) false = 0 := by
        unfold sqResid
        refine Finset.sum_eq_zero (fun i hi => Finset.sum_eq_zero (fun j hj => ?_))
        have hi' : i < l.length := Finset.mem_range.1 hi
        have hj' : j < s.mat.nc := Finset.mem_range.1 hj
        obtain rfl : j = 0 := by omega
        have ht := hl l[i] (List.getElem_mem hi')
        have e1 : (argRows s l).get i 0 = 1 := by
          unfold argRows
          rw [Mat.of_get_lt hi' (by omega), List.getElem?_eq_getElem hi']
          exact hv _ ht.1
        have e2 : (phraseRows s l).get i 0 = 1 := by
          unfold phraseRows
          rw [Mat.of_get_lt hi' (by omega), List.getElem?_eq_getElem hi']
          exact hv _ ht.2
        unfold predict
        rw [show (argRows s l).nc = s.mat.nc from rfl, hnc]
        simp [e1, e2, onesEnv, Mat.of_get]
      rw [hzero]
      exact Finset.sum_nonneg fun i _ => Finset.sum_nonneg fun j _ => sq_nonneg _

end
end Dissect
