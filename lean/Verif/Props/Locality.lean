import Verif.Props.StackMore
import Verif.Props.Repeat
import Verif.Props.FailedCall

/-! # C160: words that do not occur in the data do not matter -/

namespace Dissect
open Finset
noncomputable section
variable {κ : Type} [DecidableEq κ]

/-- Two spaces that look alike to somebody who only asks for the words in `P`: the same matrix class, the same width, and each
word of `P` is in both with the same vector or in neither. Anything may differ about the other words: which there are, how many,
in what order, their vectors. -/
structure LookAlike (P : κ → Prop) (s t : Space κ) : Prop where
  wf : s.WF
  wf' : t.WF
  ty : s.mat.ty = t.mat.ty
  width : s.mat.nc = t.mat.nc
  words : ∀ w, P w → (w ∈ s.id2row ↔ w ∈ t.id2row)
  vectors : ∀ w, P w → w ∈ s.id2row → ∀ j, s.vecOf w j = t.vecOf w j

theorem LookAlike.getRows {P : κ → Prop} {s t : Space κ} (h : LookAlike P s t) (ws : List κ) (hw : ∀ w ∈ ws, P w) :
    s.getRows ws = t.getRows ws := by
  by_cases hall : ∀ w ∈ ws, w ∈ s.id2row
  · have hall' : ∀ w ∈ ws, w ∈ t.id2row := fun w m => (h.words w (hw w m)).1 (hall w m)
    obtain ⟨ks, hks⟩ := Space.positions hall
    obtain ⟨is, h1, h2⟩ := Space.rowIds_eq_ok h.wf hks
    obtain ⟨ks', hks'⟩ := Space.positions hall'
    obtain ⟨is', h1', h2'⟩ := Space.rowIds_eq_ok h.wf' hks'
    unfold Space.getRows
    simp only [h1, h1', ok_bind, TMat.getRows, TMat.normIdx_ok h2, TMat.normIdx_ok h2']
    rw [h.ty]
    congr 1
    have l1 : ks.length = ws.length := hks.length_eq.symm
    have l2 : ks'.length = ws.length := hks'.length_eq.symm
    refine Mat.ext' (by simp only [Mat.selRows_nr]; omega) h.width (fun p j hp hj => ?_)
    have hp' : p < ws.length := by simp only [Mat.selRows_nr] at hp; omega
    have hk := (List.forall₂_iff_get.1 hks).2 p hp' (by omega)
    have hk' := (List.forall₂_iff_get.1 hks').2 p hp' (by omega)
    simp only [List.get_eq_getElem] at hk hk'
    rw [Mat.selRows_get_some (r := ks[p]'(by omega)) (List.getElem?_eq_getElem (by omega)),
      Mat.selRows_get_some (r := ks'[p]'(by omega)) (List.getElem?_eq_getElem (by omega))]
    have hv := h.vectors ws[p] (hw _ (List.getElem_mem hp')) (hall _ (List.getElem_mem hp')) j
    rw [Space.vecOf_word h.wf hk, Space.vecOf_word h.wf' hk'] at hv
    exact hv
  · have hall2 : ∃ w ∈ ws, w ∉ s.id2row := by push Not at hall; exact hall
    obtain ⟨w, m, hn⟩ := hall2
    rw [(C03_get_rows_missing s h.wf ws).2 ⟨w, m, hn⟩,
      (C03_get_rows_missing t h.wf' ws).2 ⟨w, m, fun hc => hn ((h.words w (hw w m)).2 hc)⟩]

theorem LookAlike.known {P : κ → Prop} {s t : Space κ} (h : LookAlike P s t) (w : κ) (hw : P w) :
    knownIn (some s.row2id) w = knownIn (some t.row2id) w := by
  have e := h.words w hw
  have a := h.wf.rows.contains w
  have b := h.wf'.rows.contains w
  unfold knownIn
  simp only
  rw [a, b, decide_eq_decide]
  exact e

theorem LookAlike.mono {P Q : κ → Prop} {s t : Space κ} (h : LookAlike P s t) (hq : ∀ w, Q w → P w) : LookAlike Q s t :=
  ⟨h.wf, h.wf', h.ty, h.width, fun w hw => h.words w (hq w hw), fun w hw => h.vectors w (hq w hw)⟩

theorem validLoop_congr {d1 d2 d3 e1 e2 e3 : Option (Dict κ ℤ)} {data : List (Triple κ)}
    (h : ∀ t ∈ data, knownIn d1 t.1 = knownIn e1 t.1 ∧ knownIn d2 t.2.1 = knownIn e2 t.2.1 ∧
      knownIn d3 t.2.2 = knownIn e3 t.2.2) : validLoop d1 d2 d3 data = validLoop e1 e2 e3 data := by
  induction data with
  | nil => rfl
  | cons t rest ih =>
    obtain ⟨a, b, c⟩ := t
    obtain ⟨h1, h2, h3⟩ := h (a, b, c) (List.mem_cons_self ..)
    simp only at h1 h2 h3
    simp only [validLoop, ih (fun t ht => h t (List.mem_cons_of_mem _ ht)), h1, h2, h3]

theorem validData_congr {d1 d2 d3 e1 e2 e3 : Option (Dict κ ℤ)} {data : List (Triple κ)}
    (h : ∀ t ∈ data, knownIn d1 t.1 = knownIn e1 t.1 ∧ knownIn d2 t.2.1 = knownIn e2 t.2.1 ∧
      knownIn d3 t.2.2 = knownIn e3 t.2.2) : validData data d1 d2 d3 = validData data e1 e2 e3 := by
  unfold validData
  cases data with
  | nil => rfl
  | cons t rest => simp only [validLoop_congr h]

theorem validLoop_mem {d1 d2 d3 : Option (Dict κ ℤ)} {data : List (Triple κ)} :
    (∀ w ∈ (validLoop d1 d2 d3 data).1, ∃ t ∈ data, t.1 = w) ∧
    (∀ w ∈ (validLoop d1 d2 d3 data).2.1, ∃ t ∈ data, t.2.1 = w) ∧
    (∀ w ∈ (validLoop d1 d2 d3 data).2.2, ∃ t ∈ data, t.2.2 = w) := by
  induction data with
  | nil => simp [validLoop]
  | cons t rest ih =>
    obtain ⟨a, b, c⟩ := t
    obtain ⟨i1, i2, i3⟩ := ih
    simp only [validLoop]
    split
    · refine ⟨fun w hw => ?_, fun w hw => ?_, fun w hw => ?_⟩
      · rcases List.mem_cons.1 hw with rfl | hw
        · exact ⟨_, List.mem_cons_self .., rfl⟩
        · obtain ⟨t, ht, e⟩ := i1 w hw; exact ⟨t, List.mem_cons_of_mem _ ht, e⟩
      · rcases List.mem_cons.1 hw with rfl | hw
        · exact ⟨_, List.mem_cons_self .., rfl⟩
        · obtain ⟨t, ht, e⟩ := i2 w hw; exact ⟨t, List.mem_cons_of_mem _ ht, e⟩
      · rcases List.mem_cons.1 hw with rfl | hw
        · exact ⟨_, List.mem_cons_self .., rfl⟩
        · obtain ⟨t, ht, e⟩ := i3 w hw; exact ⟨t, List.mem_cons_of_mem _ ht, e⟩
    · refine ⟨fun w hw => ?_, fun w hw => ?_, fun w hw => ?_⟩
      · obtain ⟨t, ht, e⟩ := i1 w hw; exact ⟨t, List.mem_cons_of_mem _ ht, e⟩
      · obtain ⟨t, ht, e⟩ := i2 w hw; exact ⟨t, List.mem_cons_of_mem _ ht, e⟩
      · obtain ⟨t, ht, e⟩ := i3 w hw; exact ⟨t, List.mem_cons_of_mem _ ht, e⟩

theorem validData_mem {d1 d2 d3 : Option (Dict κ ℤ)} {data : List (Triple κ)} {l1 l2 l3 : List κ}
    (h : validData data d1 d2 d3 = .ok (l1, l2, l3)) :
    (∀ w ∈ l1, ∃ t ∈ data, t.1 = w) ∧ (∀ w ∈ l2, ∃ t ∈ data, t.2.1 = w) ∧ (∀ w ∈ l3, ∃ t ∈ data, t.2.2 = w) := by
  have hm := validLoop_mem (d1 := d1) (d2 := d2) (d3 := d3) (data := data)
  unfold validData at h
  cases data with
  | nil => cases h
  | cons t rest =>
    simp only at h
    split at h
    · cases h
    · have e := ok_inj h
      rename_i hc
      have e1 : (validLoop d1 d2 d3 (t :: rest)) = (l1, l2, l3) := by
        rw [← e]
      rw [e1] at hm
      exact hm

theorem sampleMats_alike {P1 P2 P3 : κ → Prop} {s1 s2 p t1 t2 q : Space κ} (h1 : LookAlike P1 s1 t1) (h2 : LookAlike P2 s2 t2)
    (h3 : LookAlike P3 p q) {l1 l2 l3 : List κ} (m1 : ∀ w ∈ l1, P1 w) (m2 : ∀ w ∈ l2, P2 w) (m3 : ∀ w ∈ l3, P3 w) :
    sampleMats s1 s2 p l1 l2 l3 = sampleMats t1 t2 q l1 l2 l3 := by
  unfold sampleMats
  rw [h1.getRows _ m1, h2.getRows _ m2, h3.getRows _ m3]

omit [DecidableEq κ] in
theorem mem_slice {l : List κ} {b e : ℕ} {w : κ} (h : w ∈ slice l b e) : w ∈ l :=
  List.mem_of_mem_take (List.mem_of_mem_drop h)

theorem chunkLoop_alike {P1 P2 P3 : κ → Prop} {s1 s2 p t1 t2 q : Space κ} (h1 : LookAlike P1 s1 t1) (h2 : LookAlike P2 s2 t2)
    (h3 : LookAlike P3 p q) {l1 l2 l3 : List κ} (m1 : ∀ w ∈ l1, P1 w) (m2 : ∀ w ∈ l2, P2 w) (m3 : ∀ w ∈ l3, P3 w)
    (size : ℕ) (is : List ℕ) (acc : Dots) :
    chunkLoop s1 s2 p l1 l2 l3 size acc is = chunkLoop t1 t2 q l1 l2 l3 size acc is := by
  induction is generalizing acc with
  | nil => rfl
  | cons i is ih =>
    simp only [chunkLoop]
    rw [sampleMats_alike h1 h2 h3 (fun w hw => m1 w (mem_slice hw)) (fun w hw => m2 w (mem_slice hw))
      (fun w hw => m3 w (mem_slice hw))]
    simp only [ih]

theorem trainOn_alike (env : Env) (c : CModel) {P1 P2 P3 : κ → Prop} {s1 s2 p t1 t2 q : Space κ} (h1 : LookAlike P1 s1 t1)
    (h2 : LookAlike P2 s2 t2) (h3 : LookAlike P3 p q) {l1 l2 l3 : List κ} (m1 : ∀ w ∈ l1, P1 w) (m2 : ∀ w ∈ l2, P2 w)
    (m3 : ∀ w ∈ l3, P3 w) (hn : (∃ a b, c = .weighted a b) → p.mat.nr / 15 = q.mat.nr / 15) :
    c.trainOn env s1 s2 p l1 l2 l3 = c.trainOn env t1 t2 q l1 l2 l3 := by
  cases c with
  | multiplicative => rfl
  | weighted a b =>
    simp only [CModel.trainOn, trainWeighted, chunkSize]
    rw [hn ⟨a, b, rfl⟩, chunkLoop_alike h1 h2 h3 m1 m2 m3]
  | dilation l =>
    simp only [CModel.trainOn]
    rw [sampleMats_alike h1 h2 h3 m1 m2 m3]
  | fullAdditive a b i l =>
    simp only [CModel.trainOn]
    rw [sampleMats_alike h1 h2 h3 m1 m2 m3]

/-- **C160** (true part) Training a model that combines two vectors depends on the spaces only through the vectors of the words
that occur in the training data: with spaces that look alike for the first, second and third words of the triples the whole
outcome is the same – the trained model or the exception. For `WeightedAdditive` the phrase spaces have to be of the same size up
to multiples of 15. -/
theorem C160_train_partial (env : Env) (c : Composer κ) (data : List (Triple κ)) (args args' : ArgSpace κ)
    (s1 s2 p t1 t2 q : Space κ) (ha : args.extract = .ok (s1, s2)) (ha' : args'.extract = .ok (t1, t2))
    (h1 : LookAlike (fun w => ∃ t ∈ data, t.1 = w) s1 t1) (h2 : LookAlike (fun w => ∃ t ∈ data, t.2.1 = w) s2 t2)
    (h3 : LookAlike (fun w => ∃ t ∈ data, t.2.2 = w) p q) (hcols : p.id2col = q.id2col)
    (hn : (∃ a b, c.model = .weighted a b) → p.mat.nr / 15 = q.mat.nr / 15) :
    c.train env data args p = c.train env data args' q := by
  unfold Composer.train
  split
  · unfold Composer.trainShared
    rw [ha, ha']
    simp only [ok_bind]
    have hv : validData data (some s1.row2id) (some s2.row2id) (some p.row2id) =
        validData data (some t1.row2id) (some t2.row2id) (some q.row2id) :=
      validData_congr fun t ht => ⟨h1.known _ ⟨t, ht, rfl⟩, h2.known _ ⟨t, ht, rfl⟩, h3.known _ ⟨t, ht, rfl⟩⟩
    rw [hv]
    cases hd : validData data (some t1.row2id) (some t2.row2id) (some q.row2id) with
    | error e => rfl
    | ok l =>
      obtain ⟨l1, l2, l3⟩ := l
      obtain ⟨m1, m2, m3⟩ := validData_mem hd
      simp only [ok_bind]
      rw [trainOn_alike env c.model h1 h2 h3 m1 m2 m3 hn, hcols]
  · rfl

theorem lexTrainLoop_alike (env : Env) (l : Learner) {P Q : κ → Prop} {s p t q : Space κ} (h1 : LookAlike P s t)
    (h2 : LookAlike Q p q) {al pl : List κ} (m1 : ∀ w ∈ al, P w) (m2 : ∀ w ∈ pl, Q w) (size : ℕ) (rs : List (ℕ × ℕ)) :
    lexTrainLoop env l s p al pl size rs = lexTrainLoop env l t q al pl size rs := by
  induction rs with
  | nil => rfl
  | cons r rs ih =>
    obtain ⟨b, e⟩ := r
    simp only [lexTrainLoop, lexTrainOne]
    rw [h1.getRows _ (fun w hw => m1 w (mem_slice hw)), h2.getRows _ (fun w hw => m2 w (mem_slice hw)), ih]

/-- **C160** (true part) The same for a `LexicalFunction`. -/
theorem C160_lexical_partial (env : Env) (le : κ → κ → Bool) (m : LexFun κ) (data : List (Triple κ)) (s p t q : Space κ)
    (h1 : LookAlike (fun w => ∃ t ∈ data, t.2.1 = w) s t) (h2 : LookAlike (fun w => ∃ t ∈ data, t.2.2 = w) p q)
    (e1 : s.elemShape = t.elemShape) (e2 : p.elemShape = q.elemShape) (hcols : p.id2col = q.id2col) :
    m.train env le data s p = m.train env le data t q := by
  unfold LexFun.train
  have hs : ∀ x, x ∈ data.mergeSort (fun x y => le x.1 y.1) ↔ x ∈ data := fun x => List.mem_mergeSort
  have hv : validData (data.mergeSort (fun x y => le x.1 y.1)) none (some s.row2id) (some p.row2id) =
      validData (data.mergeSort (fun x y => le x.1 y.1)) none (some t.row2id) (some q.row2id) :=
    validData_congr fun x hx => ⟨rfl, h1.known _ ⟨x, (hs x).1 hx, rfl⟩, h2.known _ ⟨x, (hs x).1 hx, rfl⟩⟩
  simp only
  rw [hv, e1, e2]
  cases hd : validData (data.mergeSort (fun x y => le x.1 y.1)) none (some t.row2id) (some q.row2id) with
  | error e => rfl
  | ok l =>
    obtain ⟨l1, l2, l3⟩ := l
    obtain ⟨_, m1, m2⟩ := validData_mem hd
    simp only [ok_bind]
    have m1' : ∀ w ∈ l2, ∃ t ∈ data, t.2.1 = w := fun w hw => by
      obtain ⟨x, hx, e⟩ := m1 w hw; exact ⟨x, (hs x).1 hx, e⟩
    have m2' : ∀ w ∈ l3, ∃ t ∈ data, t.2.2 = w := fun w hw => by
      obtain ⟨x, hx, e⟩ := m2 w hw; exact ⟨x, (hs x).1 hx, e⟩
    simp only [lexTrainLoop_alike env m.learner h1 h2 m1' m2', hcols]

theorem stack_ty {s1 s2 s : Space κ} (hty : s1.mat.ty = s2.mat.ty) (h : Space.vstack s1 s2 = .ok s) : s.mat.ty = s1.mat.ty := by
  unfold Space.vstack at h
  split at h
  · cases h
  · split at h
    · cases h
    · simp only [bind_eq_ok] at h
      obtain ⟨_, ha, l, hl, h⟩ := h
      have hc : TMat.typeConflict [s1.mat, s2.mat] = false := by
        simp [TMat.typeConflict, hty]
      unfold TMat.resolveTypeConflict at hl
      rw [hc] at hl
      have hl' := ok_inj hl
      subst hl'
      simp only [bind_eq_ok] at h
      obtain ⟨m, hm, h⟩ := h
      obtain ⟨e1, _⟩ := Space.new_eq_ok h
      rw [e1]
      unfold TMat.vstack at hm
      rw [if_pos hty] at hm
      split at hm
      · rw [(TMat.wrap_eq_ok hm).1]
      · cases hm

/-- **C160** (true part) Training with one stacked space is training with its two parts, when no first constituent is a word of
the second part and no second constituent a word of the first. -/
theorem C160_stacked_partial (env : Env) (c : Composer κ) (data : List (Triple κ)) (s1 s2 s p : Space κ) (h1 : s1.WF)
    (h2 : s2.WF) (hp : p.WF) (hty : s1.mat.ty = s2.mat.ty) (h : Space.vstack s1 s2 = .ok s)
    (hd : ∀ t ∈ data, t.1 ∉ s2.id2row ∧ t.2.1 ∉ s1.id2row) :
    c.train env data (.one s) p = c.train env data (.tuple [s1, s2]) p := by
  obtain ⟨wf, rows, cols, ty, nc, _⟩ := C04_words_keep_vectors s1 s2 s h1 h2 h
  obtain ⟨a1, a2, a3⟩ := stack_cond h1 h
  obtain ⟨g1, g2⟩ := stack_vec h1 h2 h
  refine C160_train_partial env c data _ _ s s p s1 s2 p ((extract_iff _ _ _).2 (.inl ⟨rfl, rfl⟩))
    ((extract_iff _ _ _).2 (.inr ⟨rfl, a2⟩)) ⟨wf, h1, ?_, nc, ?_, ?_⟩ ⟨wf, h2, ?_, by rw [nc, a1], ?_, ?_⟩
    ⟨hp, hp, rfl, rfl, fun _ _ => Iff.rfl, fun _ _ _ _ => rfl⟩ rfl (fun _ => rfl)
  · exact stack_ty hty h
  · rintro w ⟨t, ht, rfl⟩
    have := (hd t ht).1
    rw [rows, List.mem_append]
    tauto
  · rintro w ⟨t, ht, rfl⟩ hw j
    have := (hd t ht).1
    rw [rows, List.mem_append] at hw
    rw [g1 _ (by tauto)]
  · rw [stack_ty hty h, hty]
  · rintro w ⟨t, ht, rfl⟩
    have := (hd t ht).2
    rw [rows, List.mem_append]
    tauto
  · rintro w ⟨t, ht, rfl⟩ hw j
    have := (hd t ht).2
    rw [rows, List.mem_append] at hw
    rw [g2 _ (by tauto)]

/-- **C160** is false for `WeightedAdditive`: the phrase spaces `p` and `q` look alike for all the words of the training data,
but `q` contains fifteen other phrases. With `p` the trained weights are 1 and 0, with `q` they are 0 and 0: the number of
phrases decides how the training data are cut into chunks, and an incomplete chunk is dropped. -/
theorem C160_weighted_refuted (env : Env) (henv : env.Ideal) :
    ∃ (c : Composer ℕ) (s p q : Space ℕ) (t : Triple ℕ), newWeighted .absent .absent = .ok c ∧ s.WF ∧
      LookAlike (fun w => w = t.2.2) p q ∧ p.id2col = q.id2col ∧
      c.train env [t] (.one s) p = .ok ⟨.weighted 1 0, some p.id2col⟩ ∧
      c.train env [t] (.one s) q = .ok ⟨.weighted 0 0, some q.id2col⟩ := by
  obtain ⟨s, wf, hm, rows, cols, _⟩ := exists_space (Mat.of 2 1 (fun i _ => if i = 1 then (1 : ℝ) else 0)) (List.range 2)
    List.nodup_range (by simp) none (by simp)
  obtain ⟨q, wfq, hmq, rowsq, colsq, _⟩ := exists_space (Mat.of 15 1 (fun i _ => if i = 1 then (1 : ℝ) else 0)) (List.range 15)
    List.nodup_range (by simp) none (by simp)
  have nc : s.mat.nc = 1 := by rw [hm]; rfl
  have ncq : q.mat.nc = 1 := by rw [hmq]; rfl
  have nr : s.mat.nr = 2 := by rw [hm]; rfl
  have nrq : q.mat.nr = 15 := by rw [hmq]; rfl
  have hvec : ∀ w, w < 2 → s.vecOf w = fun j => (Mat.of 2 1 (fun i _ => if i = 1 then (1 : ℝ) else 0)).get w j := by
    intro w hw
    unfold Space.vecOf
    rw [hm, rows]
    have h2 : (List.range 2).idxOf w = w := by
      have := List.Nodup.idxOf_getElem (List.nodup_range (n := 2)) w (by simpa using hw)
      simpa using this
    rw [h2]
  have hvecq : q.vecOf 1 = fun j => (Mat.of 15 1 (fun i _ => if i = 1 then (1 : ℝ) else 0)).get 1 j := by
    unfold Space.vecOf
    rw [hmq, rowsq]
    have h2 : (List.range 15).idxOf 1 = 1 := by decide
    rw [h2]
  set d1 : List (Triple ℕ) := [(1, 0, 1)] with hd1
  have t1 : trainTriples s s s d1 = d1 := by unfold trainTriples; rw [rows]; rfl
  have t2 : trainTriples s s q d1 = d1 := by unfold trainTriples; rw [rows, rowsq]; rfl
  have u1 : usedSamples s d1 = d1 := by unfold usedSamples; rw [nr]; simp [hd1]
  have u2 : usedSamples q d1 = [] := by unfold usedSamples; rw [nrq]; simp [hd1]
  have v0 : s.vecOf 0 0 = 0 := by
    rw [hvec 0 (by omega)]; simp only; rw [Mat.of_get_lt (by omega) (by omega)]; simp
  have v1 : s.vecOf 1 0 = 1 := by
    rw [hvec 1 (by omega)]; simp only; rw [Mat.of_get_lt (by omega) (by omega)]; simp
  have g1 : gram2 s s 1 (usedSamples s d1) = corner2 := by
    rw [u1]
    refine Mat.ext' rfl rfl (fun i j hi hj => ?_)
    have hi' : i < 2 := hi
    have hj' : j < 2 := hj
    unfold gram2 corner2
    rw [Mat.of_get_lt hi' hj', Mat.of_get_lt hi' hj']
    by_cases h1 : i = 0 <;> by_cases h2 : j = 0 <;> simp [hd1, dot, v0, v1, h1, h2]
  have g2 : gram2 s s 1 (usedSamples q d1) = zero2 := by
    rw [u2]
    refine Mat.ext' rfl rfl (fun i j hi hj => ?_)
    have hi' : i < 2 := hi
    have hj' : j < 2 := hj
    unfold gram2 zero2
    rw [Mat.of_get_lt hi' hj', Mat.of_get_lt hi' hj']
    simp
  obtain ⟨P, hP, hpin⟩ := henv.pinv zero2
  obtain ⟨Q, hQ, hqin⟩ := henv.pinv corner2
  refine ⟨⟨.weighted (1 / 2) (1 / 2), none⟩, s, s, q, (1, 0, 1), rfl, wf,
    ⟨wf, wfq, by rw [hm, hmq], by rw [nc, ncq], ?_, ?_⟩, by rw [cols, colsq], ?_, ?_⟩
  · rintro w rfl
    rw [rows, rowsq]; simp
  · rintro w rfl hw j
    simp only
    rw [hvec 1 (by omega), hvecq]
    simp only [Mat.of_get]
    by_cases hj : j < 1 <;> simp [hj]
  · have := trainWeighted_ok env (⟨.weighted (1 / 2) (1 / 2), none⟩ : Composer ℕ) _ _ rfl d1 (.one s) s s s 1
      ((extract_iff _ _ _).2 (Or.inl ⟨rfl, rfl⟩)) wf wf wf Nat.one_pos nc nc nc (by rw [t1]; simp [hd1]) Q
      (by rw [t1, g1]; exact hQ) hqin.nc
    rw [this, t1, u1]
    obtain rfl := hqin.unique corner2_pinv
    simp [hd1, dotsOf, dot, v0, v1, corner2_get]
  · have := trainWeighted_ok env (⟨.weighted (1 / 2) (1 / 2), none⟩ : Composer ℕ) _ _ rfl d1 (.one s) s s q 1
      ((extract_iff _ _ _).2 (Or.inl ⟨rfl, rfl⟩)) wf wf wfq Nat.one_pos nc nc ncq (by rw [t2]; simp [hd1]) P
      (by rw [t2, g2]; exact hP) hpin.nc
    rw [this]
    have hz := pinv_zero (Z := zero2) (by intro i j; simp [zero2, Mat.of_get]) hpin
    simp [hz]

end
end Dissect
