import Verif.Lemmas.Io

/-! The two matrix readers. -/

namespace Dissect

theorem take_succ_set {α : Type} (l : List α) (i : ℕ) (x : α) (h : i < l.length) :
    (l.set i x).take (i + 1) = l.take i ++ [x] := by
  induction l generalizing i with
  | nil => simp at h
  | cons a l ih =>
    cases i with
    | zero => simp
    | succ i =>
      simp only [List.set_cons_succ, List.take_succ_cons, List.cons_append]
      rw [ih i (by simpa using h)]

/-- The coordinates and count that a record contributes. -/
noncomputable def keep (io : NumIO) (rd cd : Dict Str ℤ) : List Str → Option (ℤ × ℤ × ℝ)
  | a :: b :: x :: _ => match rd.get? a, cd.get? b with
    | some r, some c => (io.parse x).map (fun v => (r, c, v))
    | _, _ => none
  | _ => none

theorem sparseLoop_good {io : NumIO} {rows cols : List Str} {rd cd : Dict Str ℤ} (hr : IndexOf rows rd)
    (hc : IndexOf cols cd) (ls : List (List Str)) : ∀ (st : SparseSt),
    (∀ t ∈ ls, GoodSm io rows cols t) →
    st.i + ls.length ≤ st.row.length → st.i + ls.length ≤ st.col.length → st.i + ls.length ≤ st.data.length →
    ∃ st', sparseLoop io rd cd ls st = .ok st' ∧
      st'.row.take st'.i = st.row.take st.i ++ (ls.filterMap (keep io rd cd)).map (fun e => e.1) ∧
      st'.col.take st'.i = st.col.take st.i ++ (ls.filterMap (keep io rd cd)).map (fun e => e.2.1) ∧
      st'.data.take st'.i = st.data.take st.i ++ (ls.filterMap (keep io rd cd)).map (fun e => e.2.2) := by
  induction ls with
  | nil => intro st _ _ _ _; exact ⟨st, rfl, by simp, by simp, by simp⟩
  | cons t ls ih =>
    intro st hg h1 h2 h3
    obtain ⟨a, b, x, rest, rfl, hp⟩ := hg _ (List.mem_cons_self)
    have hg' : ∀ t ∈ ls, GoodSm io rows cols t := fun t ht => hg t (List.mem_cons_of_mem _ ht)
    simp only [List.length_cons] at h1 h2 h3
    have skip : sparseLine io rd cd (a :: b :: x :: rest) st = .ok st → keep io rd cd (a :: b :: x :: rest) = none →
        ∃ st', sparseLoop io rd cd ((a :: b :: x :: rest) :: ls) st = .ok st' ∧
      st'.row.take st'.i = st.row.take st.i ++
        (((a :: b :: x :: rest) :: ls).filterMap (keep io rd cd)).map (fun e => e.1) ∧
      st'.col.take st'.i = st.col.take st.i ++
        (((a :: b :: x :: rest) :: ls).filterMap (keep io rd cd)).map (fun e => e.2.1) ∧
      st'.data.take st'.i = st.data.take st.i ++
        (((a :: b :: x :: rest) :: ls).filterMap (keep io rd cd)).map (fun e => e.2.2) := by
      intro e1 e2
      rw [sparseLoop, e1, ok_bind, List.filterMap_cons, e2]
      exact ih st hg' (by omega) (by omega) (by omega)
    by_cases ha : a ∈ rows
    · obtain ⟨i, _, _, hi⟩ := hr.get_mem ha
      by_cases hb : b ∈ cols
      · obtain ⟨j, _, _, hj⟩ := hc.get_mem hb
        obtain ⟨v, hv⟩ := Option.ne_none_iff_exists'.1 (hp ha hb)
        have e1 : sparseLine io rd cd (a :: b :: x :: rest) st
            = .ok ⟨st.row.set st.i i, st.col.set st.i j, st.data.set st.i v, st.i + 1⟩ := by
          simp only [sparseLine, hi, hj, hv]
        have e2 : keep io rd cd (a :: b :: x :: rest) = some ((i : ℤ), (j : ℤ), v) := by
          simp only [keep, hi, hj, hv, Option.map_some]
        obtain ⟨st', g1, g2, g3, g4⟩ := ih ⟨st.row.set st.i i, st.col.set st.i j, st.data.set st.i v, st.i + 1⟩ hg'
          (by simp only [List.length_set]; omega) (by simp only [List.length_set]; omega)
          (by simp only [List.length_set]; omega)
        refine ⟨st', ?_, ?_, ?_, ?_⟩
        · rw [sparseLoop, e1, ok_bind, g1]
        · rw [g2, List.filterMap_cons, e2]
          simp only [List.map_cons]
          rw [take_succ_set _ _ _ (by omega), List.append_assoc, List.singleton_append]
        · rw [g3, List.filterMap_cons, e2]
          simp only [List.map_cons]
          rw [take_succ_set _ _ _ (by omega), List.append_assoc, List.singleton_append]
        · rw [g4, List.filterMap_cons, e2]
          simp only [List.map_cons]
          rw [take_succ_set _ _ _ (by omega), List.append_assoc, List.singleton_append]
      · have hj := hc.get_none hb
        exact skip (by simp only [sparseLine, hi, hj]) (by simp only [keep, hi, hj])
    · have hi := hr.get_none ha
      exact skip (by simp only [sparseLine, hi]) (by simp only [keep, hi])

theorem sparseLine_bad {io : NumIO} {rows cols : List Str} {rd cd : Dict Str ℤ} (hr : IndexOf rows rd)
    (hc : IndexOf cols cd) {t : List Str} (h : ¬ GoodSm io rows cols t) (st : SparseSt) :
    sparseLine io rd cd t st = .error .valueError := by
  match t, h with
  | [], _ => rfl
  | [_], _ => rfl
  | [_, _], _ => rfl
  | a :: b :: x :: rest, h =>
    by_cases ha : a ∈ rows
    · by_cases hb : b ∈ cols
      · have : io.parse x = none := by
          by_contra hx
          exact h ⟨a, b, x, rest, rfl, fun _ _ => hx⟩
        obtain ⟨i, _, _, hi⟩ := hr.get_mem ha
        obtain ⟨j, _, _, hj⟩ := hc.get_mem hb
        simp only [sparseLine, hi, hj, this]
      · exact absurd ⟨a, b, x, rest, rfl, fun _ h => absurd h hb⟩ h
    · exact absurd ⟨a, b, x, rest, rfl, fun h _ => absurd h ha⟩ h

theorem sparseLine_error {io : NumIO} {rd cd : Dict Str ℤ} {t : List Str} {st : SparseSt} {e : PyErr}
    (h : sparseLine io rd cd t st = .error e) : e = .valueError := by
  unfold sparseLine at h
  split at h
  · split at h
    · split at h
      · cases h
      · injection h with h; exact h.symm
    · cases h
  · injection h with h; exact h.symm

theorem sparseLoop_bad {io : NumIO} {rows cols : List Str} {rd cd : Dict Str ℤ} (hr : IndexOf rows rd)
    (hc : IndexOf cols cd) (ls : List (List Str)) : ∀ (st : SparseSt),
    (∃ t ∈ ls, ¬ GoodSm io rows cols t) → sparseLoop io rd cd ls st = .error .valueError := by
  induction ls with
  | nil => rintro st ⟨t, ht, _⟩; simp at ht
  | cons t ls ih =>
    rintro st ⟨u, hu, hbad⟩
    rw [sparseLoop]
    rcases py_cases (sparseLine io rd cd t st) with ⟨st', hst⟩ | ⟨e, he⟩
    · rw [hst, ok_bind]
      apply ih
      rcases List.mem_cons.1 hu with rfl | hu
      · rw [sparseLine_bad hr hc hbad] at hst; cases hst
      · exact ⟨u, hu, hbad⟩
    · have := sparseLine_error he
      subst this
      rw [he, error_bind]

theorem zip3_map {α β γ δ : Type} (l : List δ) (f : δ → α) (g : δ → β) (h : δ → γ) :
    (l.map f).zip ((l.map g).zip (l.map h)) = l.map (fun e => (f e, g e, h e)) := by
  induction l with
  | nil => rfl
  | cons a l ih => simp [ih]

theorem keep_range {io : NumIO} {rows cols : List Str} {rd cd : Dict Str ℤ} (hr : IndexOf rows rd)
    (hc : IndexOf cols cd) {t : List Str} {e : ℤ × ℤ × ℝ} (h : keep io rd cd t = some e) :
    (0 ≤ e.1 ∧ e.1 < rows.length) ∧ (0 ≤ e.2.1 ∧ e.2.1 < cols.length) := by
  unfold keep at h
  split at h
  · split at h
    · rename_i r c h1 h2
      obtain ⟨i, rfl, hi⟩ := (hr _ _).1 h1
      obtain ⟨j, rfl, hj⟩ := (hc _ _).1 h2
      obtain ⟨v, _, rfl⟩ := Option.map_eq_some_iff.1 h
      have hi' := (List.getElem?_eq_some_iff.1 hi).1
      have hj' := (List.getElem?_eq_some_iff.1 hj).1
      simp only []
      omega
    · cases h
  · cases h

theorem keep_sum {io : NumIO} {rows cols : List Str} {rd cd : Dict Str ℤ} (hr : IndexOf rows rd)
    (hc : IndexOf cols cd) {i j : ℕ} {w1 w2 : Str} (h1 : rows[i]? = some w1) (h2 : cols[j]? = some w2)
    (ls : List (List Str)) :
    (((((ls.filterMap (keep io rd cd)).map (fun e => (e.1.toNat, e.2.1.toNat, e.2.2))).filter
      (fun e => decide (e.1 = i ∧ e.2.1 = j)))).map (fun e => e.2.2)).sum =
      (ls.map (recordCount io w1 w2)).sum := by
  induction ls with
  | nil => rfl
  | cons t ls ih =>
    rw [List.map_cons, List.sum_cons, ← ih]
    match t with
    | [] => rw [List.filterMap_cons]; simp [keep, recordCount]
    | [_] => rw [List.filterMap_cons]; simp [keep, recordCount]
    | [_, _] => rw [List.filterMap_cons]; simp [keep, recordCount]
    | a :: b :: x :: rest =>
      rw [List.filterMap_cons]
      cases ha : rd.get? a with
      | none =>
        have : a ≠ w1 := by
          rintro rfl
          rw [hr.get_some h1] at ha
          cases ha
        simp [keep, ha, recordCount, this]
      | some r =>
        cases hb : cd.get? b with
        | none =>
          have : b ≠ w2 := by
            rintro rfl
            rw [hc.get_some h2] at hb
            cases hb
          simp [keep, ha, hb, recordCount, this]
        | some c =>
          obtain ⟨i', rfl, hi'⟩ := (hr _ _).1 ha
          obtain ⟨j', rfl, hj'⟩ := (hc _ _).1 hb
          have ei : i' = i ↔ a = w1 := by
            constructor
            · rintro rfl; rw [h1] at hi'; injection hi' with hi'; exact hi'.symm
            · rintro rfl; exact hr.unique hi' h1
          have ej : j' = j ↔ b = w2 := by
            constructor
            · rintro rfl; rw [h2] at hj'; injection hj' with hj'; exact hj'.symm
            · rintro rfl; exact hc.unique hj' h2
          cases hx : io.parse x with
          | none => simp [keep, ha, hb, hx, recordCount]
          | some v =>
            simp only [keep, ha, hb, hx, Option.map_some, List.map_cons, List.filter_cons, Int.toNat_natCast,
              recordCount, ei, ej, Option.getD_some]
            by_cases hab : a = w1 ∧ b = w2
            · simp [hab]
            · simp [hab]

theorem readSparse_good {io : NumIO} {rows cols : List Str} {rd cd : Dict Str ℤ} (hr : IndexOf rows rd)
    (hc : IndexOf cols cd) {content : Str} (hg : ∀ t ∈ records content, GoodSm io rows cols t) :
    ∃ m, readSparse io content rd cd = .ok m ∧ m.ty = .sparse ∧ m.nr = rows.length ∧ m.nc = cols.length ∧
      ∀ i j w1 w2, rows[i]? = some w1 → cols[j]? = some w2 → m.val.get i j = cellSum io content w1 w2 := by
  set n := (records content).length with hn
  obtain ⟨st, h1, h2, h3, h4⟩ := sparseLoop_good (io := io) hr hc (records content)
    ⟨List.replicate n 0, List.replicate n 0, List.replicate n 0, 0⟩ hg (by simp [hn]) (by simp [hn]) (by simp [hn])
  simp only [List.take_zero, List.nil_append] at h2 h3 h4
  have hr1 : (((records content).filterMap (keep io rd cd)).map (fun e => e.1)).all
      (fun r => decide (0 ≤ r ∧ r < (rd.len : ℤ))) = true := by
    rw [List.all_eq_true]
    intro r hm
    obtain ⟨e, he, rfl⟩ := List.mem_map.1 hm
    obtain ⟨t, _, ht⟩ := List.mem_filterMap.1 he
    rw [decide_eq_true_eq, hr.len]
    exact (keep_range hr hc ht).1
  have hc1 : (((records content).filterMap (keep io rd cd)).map (fun e => e.2.1)).all
      (fun r => decide (0 ≤ r ∧ r < (cd.len : ℤ))) = true := by
    rw [List.all_eq_true]
    intro r hm
    obtain ⟨e, he, rfl⟩ := List.mem_map.1 hm
    obtain ⟨t, _, ht⟩ := List.mem_filterMap.1 he
    rw [decide_eq_true_eq, hc.len]
    exact (keep_range hr hc ht).2
  refine ⟨⟨.sparse, Coo.toMat ⟨rd.len, cd.len, ((records content).filterMap (keep io rd cd)).map
    (fun e => (e.1.toNat, e.2.1.toNat, e.2.2))⟩⟩, ?_, rfl, ?_, ?_, ?_⟩
  · unfold readSparse
    simp only [noLines_eq]
    rw [tokenLines_eq, ← hn, h1, ok_bind, h2, h3, h4]
    unfold csrOfCoords
    rw [hr1, hc1, zip3_map]
    simp [TMat.wrap, ok_bind, List.map_map, Function.comp_def]
  · exact hr.len
  · exact hc.len
  · intro i j w1 w2 e1 e2
    have hi := (List.getElem?_eq_some_iff.1 e1).1
    have hj := (List.getElem?_eq_some_iff.1 e2).1
    have := keep_sum (io := io) hr hc e1 e2 (records content)
    unfold cellSum
    rw [← this]
    unfold Coo.toMat
    rw [Mat.of_get_lt (by rw [hr.len]; exact hi) (by rw [hc.len]; exact hj)]

theorem readSparse_bad {io : NumIO} {rows cols : List Str} {rd cd : Dict Str ℤ} (hr : IndexOf rows rd)
    (hc : IndexOf cols cd) {content : Str} (hg : ∃ t ∈ records content, ¬ GoodSm io rows cols t) :
    readSparse io content rd cd = .error .valueError := by
  unfold readSparse
  simp only [tokenLines_eq]
  rw [sparseLoop_bad hr hc _ _ hg, error_bind]

/-! ### dense -/

theorem parseAll_ok {io : NumIO} {ss : List Str} (h : ∀ x ∈ ss, io.parse x ≠ none) :
    ∃ v, parseAll io ss = .ok v ∧ v.length = ss.length ∧
      ∀ j, v.getD j 0 = match ss[j]? with
        | none => 0
        | some x => (io.parse x).getD 0 := by
  induction ss with
  | nil => exact ⟨[], rfl, rfl, by simp⟩
  | cons s ss ih =>
    obtain ⟨v, h1, h2, h3⟩ := ih (fun x hx => h x (List.mem_cons_of_mem _ hx))
    obtain ⟨x, hx⟩ := Option.ne_none_iff_exists'.1 (h s List.mem_cons_self)
    refine ⟨x :: v, ?_, by simp [h2], ?_⟩
    · simp only [parseAll, hx, h1, ok_bind]; rfl
    · intro j
      cases j with
      | zero => simp [hx]
      | succ j => simpa using h3 j

theorem parseAll_bad {io : NumIO} {ss : List Str} (h : ∃ x ∈ ss, io.parse x = none) :
    parseAll io ss = .error .valueError := by
  induction ss with
  | nil => obtain ⟨x, hx, _⟩ := h; simp at hx
  | cons s ss ih =>
    obtain ⟨x, hx, hn⟩ := h
    unfold parseAll
    cases hs : io.parse s with
    | none => rfl
    | some y =>
      simp only []
      rcases List.mem_cons.1 hx with rfl | hx
      · rw [hn] at hs; cases hs
      · rw [ih ⟨x, hx, hn⟩, error_bind]

theorem parseAll_error {io : NumIO} {ss : List Str} {e : PyErr} (h : parseAll io ss = .error e) :
    e = .valueError := by
  induction ss with
  | nil => simp [parseAll] at h
  | cons s ss ih =>
    unfold parseAll at h
    split at h
    · injection h with h; exact h.symm
    · rw [bind_eq_error] at h
      rcases h with h | ⟨_, _, h⟩
      · exact ih h
      · cases h

/-- Value of column `j` for `w` among the records `ls`. -/
noncomputable def dmVal (io : NumIO) (ls : List (List Str)) (w : Str) (j : ℕ) (dflt : ℝ) : ℝ :=
  match ls.find? (fun t => decide (t.head? = some w)) with
  | none => dflt
  | some t => match t[j + 1]? with
    | none => 0
    | some x => (io.parse x).getD 0

theorem dmValue_eq (io : NumIO) (content w : Str) (j : ℕ) : dmValue io content w j = dmVal io (records content) w j 0 :=
  rfl

theorem denseLoop_good {io : NumIO} {rows : List Str} {rd : Dict Str ℤ} (hr : IndexOf rows rd) (n : ℕ)
    (ls : List (List Str)) : ∀ (m : Mat ℝ) (seen : List Str), m.nr = rows.length → m.nc = n →
    (∀ t ∈ ls, t.length = n + 1) →
    (∀ w ∈ rows, w ∉ seen → ∀ t, ls.find? (fun t => decide (t.head? = some w)) = some t →
      ∀ x ∈ t.tail, io.parse x ≠ none) →
    ∃ m' seen', denseLoop io rd n ls m seen = .ok (m', seen') ∧ m'.nr = rows.length ∧ m'.nc = n ∧
      ∀ i j w, rows[i]? = some w → j < n →
        m'.get i j = if w ∈ seen then m.get i j else dmVal io ls w j (m.get i j) := by
  induction ls with
  | nil =>
    intro m seen h1 h2 _ _
    refine ⟨m, seen, rfl, h1, h2, ?_⟩
    intro i j w _ _
    simp [dmVal]
  | cons t ls ih =>
    intro m seen h1 h2 hlen hp
    have ht : t.length = n + 1 := hlen t List.mem_cons_self
    have hlen' : ∀ t ∈ ls, t.length = n + 1 := fun u hu => hlen u (List.mem_cons_of_mem _ hu)
    match t, ht with
    | word :: elements, ht =>
    have hel : elements.length = n := by simpa using ht
    -- the line is skipped
    have skip : (word ∉ rows ∨ word ∈ seen) → denseLine io rd n (word :: elements) m seen = .ok (m, seen) →
        ∃ m' seen', denseLoop io rd n ((word :: elements) :: ls) m seen = .ok (m', seen') ∧ m'.nr = rows.length ∧
          m'.nc = n ∧ ∀ i j w, rows[i]? = some w → j < n →
          m'.get i j = if w ∈ seen then m.get i j else dmVal io ((word :: elements) :: ls) w j (m.get i j) := by
      intro hs e
      obtain ⟨m', seen', g1, g2, g3, g4⟩ := ih m seen h1 h2 hlen' (by
        intro w hw hns t hf
        apply hp w hw hns t
        rw [List.find?_cons_of_neg]
        · exact hf
        · simp only [List.head?_cons, Option.some.injEq, decide_eq_true_eq]
          rintro rfl
          rcases hs with hs | hs
          · exact hs hw
          · exact hns hs)
      refine ⟨m', seen', ?_, g2, g3, ?_⟩
      · rw [denseLoop, e, ok_bind, g1]
      · intro i j w hw hj
        rw [g4 i j w hw hj]
        by_cases hws : w ∈ seen
        · rw [if_pos hws, if_pos hws]
        · rw [if_neg hws, if_neg hws]
          unfold dmVal
          rw [List.find?_cons_of_neg]
          simp only [List.head?_cons, Option.some.injEq, decide_eq_true_eq]
          rintro rfl
          rcases hs with hs | hs
          · exact hs (List.mem_of_getElem? hw)
          · exact hws hs
    by_cases hw : word ∈ rows
    · obtain ⟨k, hk, hkw, hkd⟩ := hr.get_mem hw
      by_cases hs : word ∈ seen
      · apply skip (Or.inr hs)
        unfold denseLine
        rw [if_neg (by simp [hel])]
        simp only [hkd]
        rw [if_pos hs]
      · obtain ⟨v, hv1, hv2, hv3⟩ := parseAll_ok (io := io) (ss := elements)
          (hp word hw hs (word :: elements) (by rw [List.find?_cons_of_pos]; simp))
        have e : denseLine io rd n (word :: elements) m seen = .ok (m.setRow k v, word :: seen) := by
          unfold denseLine
          rw [if_neg (by simp [hel])]
          simp only [hkd]
          rw [if_neg hs, pyIdx_nat (by omega)]
          simp only [hv1, ok_bind]
          rfl
        obtain ⟨m', seen', g1, g2, g3, g4⟩ := ih (m.setRow k v) (word :: seen) h1 h2 hlen' (by
          intro w hw' hns t hf
          rw [List.mem_cons, not_or] at hns
          apply hp w hw' hns.2 t
          rw [List.find?_cons_of_neg]
          · exact hf
          · simp only [List.head?_cons, Option.some.injEq, decide_eq_true_eq]
            exact fun h => hns.1 h.symm)
        refine ⟨m', seen', ?_, g2, g3, ?_⟩
        · rw [denseLoop, e, ok_bind, g1]
        · intro i j w hwi hj
          have hi := (List.getElem?_eq_some_iff.1 hwi).1
          rw [g4 i j w hwi hj]
          have hget : (m.setRow k v).get i j = if i = k then v.getD j 0 else m.get i j := by
            unfold Mat.setRow
            rw [Mat.of_get_lt (by omega) (by omega)]
          rw [hget]
          by_cases hww : w = word
          · subst hww
            have hik : i = k := hr.unique hwi hkw
            rw [if_pos hik, if_neg hs, if_pos List.mem_cons_self]
            unfold dmVal
            rw [List.find?_cons_of_pos (by simp)]
            simp only [List.getElem?_cons_succ]
            exact hv3 j
          · have hik : i ≠ k := by
              rintro rfl
              rw [hwi] at hkw
              injection hkw with hkw
              exact hww hkw
            rw [if_neg hik]
            by_cases hws : w ∈ seen
            · rw [if_pos hws, if_pos (List.mem_cons_of_mem _ hws)]
            · rw [if_neg hws, if_neg (by simp [hww, hws])]
              unfold dmVal
              rw [List.find?_cons_of_neg]
              simp only [List.head?_cons, Option.some.injEq, decide_eq_true_eq]
              exact fun h => hww h.symm
    · apply skip (Or.inl hw)
      unfold denseLine
      rw [if_neg (by simp [hel])]
      simp only [hr.get_none hw]

theorem denseLine_error {io : NumIO} {rows : List Str} {rd : Dict Str ℤ} (hr : IndexOf rows rd) {n : ℕ}
    {t : List Str} {m : Mat ℝ} {seen : List Str} (h1 : m.nr = rows.length) {e : PyErr}
    (h : denseLine io rd n t m seen = .error e) : e = .valueError := by
  unfold denseLine at h
  split at h
  · injection h with h; exact h.symm
  · rename_i hlen
    split at h
    · simp at hlen
    · split at h
      · cases h
      · rename_i i hi
        obtain ⟨k, rfl, hk⟩ := (hr _ _).1 hi
        have := (List.getElem?_eq_some_iff.1 hk).1
        split at h
        · cases h
        · rw [pyIdx_nat (by omega)] at h
          simp only [] at h
          rw [bind_eq_error] at h
          rcases h with h | ⟨_, _, h⟩
          · exact parseAll_error h
          · cases h

theorem denseLine_shape {io : NumIO} {rd : Dict Str ℤ} {n : ℕ} {t : List Str} {m m' : Mat ℝ} {seen seen' : List Str}
    (h : denseLine io rd n t m seen = .ok (m', seen')) : m'.nr = m.nr ∧ m'.nc = m.nc := by
  unfold denseLine at h
  split at h
  · cases h
  · split at h
    · cases h
    · split at h
      · injection h with h; injection h with h1 h2; subst h1; exact ⟨rfl, rfl⟩
      · split at h
        · injection h with h; injection h with h1 h2; subst h1; exact ⟨rfl, rfl⟩
        · split at h
          · cases h
          · rw [bind_eq_ok] at h
            obtain ⟨v, _, h⟩ := h
            injection h with h; injection h with h1 h2; subst h1; exact ⟨rfl, rfl⟩

/-- The loop raises nothing but `ValueError`. -/
theorem denseLoop_error {io : NumIO} {rows : List Str} {rd : Dict Str ℤ} (hr : IndexOf rows rd) {n : ℕ}
    (ls : List (List Str)) : ∀ {m : Mat ℝ} {seen : List Str}, m.nr = rows.length → ∀ {e : PyErr},
    denseLoop io rd n ls m seen = .error e → e = .valueError := by
  induction ls with
  | nil => intro m seen _ e h; simp [denseLoop] at h
  | cons t ls ih =>
    intro m seen h1 e h
    rw [denseLoop, bind_eq_error] at h
    rcases h with h | ⟨st, hst, h⟩
    · exact denseLine_error hr h1 h
    · exact ih ((denseLine_shape hst).1.trans h1) h

theorem denseLoop_bad_length {io : NumIO} {rows : List Str} {rd : Dict Str ℤ} (hr : IndexOf rows rd) {n : ℕ}
    (ls : List (List Str)) : ∀ {m : Mat ℝ} {seen : List Str}, m.nr = rows.length →
    (∃ t ∈ ls, t.length ≠ n + 1) → denseLoop io rd n ls m seen = .error .valueError := by
  induction ls with
  | nil => rintro m seen _ ⟨t, ht, _⟩; simp at ht
  | cons t ls ih =>
    rintro m seen h1 ⟨u, hu, hbad⟩
    rw [denseLoop]
    rcases py_cases (denseLine io rd n t m seen) with ⟨st, hst⟩ | ⟨e, he⟩
    · rw [hst, ok_bind]
      apply ih ((denseLine_shape hst).1.trans h1)
      rcases List.mem_cons.1 hu with rfl | hu
      · unfold denseLine at hst; rw [if_pos hbad] at hst; cases hst
      · exact ⟨u, hu, hbad⟩
    · have := denseLine_error hr h1 he
      subst this
      rw [he, error_bind]

theorem denseLoop_bad_number {io : NumIO} {rows : List Str} {rd : Dict Str ℤ} (hr : IndexOf rows rd) {n : ℕ}
    (ls : List (List Str)) : ∀ {m : Mat ℝ} {seen : List Str}, m.nr = rows.length →
    (∃ w ∈ rows, w ∉ seen ∧ ∃ t, ls.find? (fun t => decide (t.head? = some w)) = some t ∧
      ∃ x ∈ t.tail, io.parse x = none) → denseLoop io rd n ls m seen = .error .valueError := by
  induction ls with
  | nil => rintro m seen _ ⟨w, _, _, t, ht, _⟩; simp at ht
  | cons t ls ih =>
    rintro m seen h1 ⟨w, hw, hns, u, hu, x, hx, hxn⟩
    rw [denseLoop]
    rcases py_cases (denseLine io rd n t m seen) with ⟨st, hst⟩ | ⟨e, he⟩
    · rw [hst, ok_bind]
      obtain ⟨m', seen'⟩ := st
      apply ih ((denseLine_shape hst).1.trans h1)
      by_cases hh : t.head? = some w
      · exfalso
        rw [List.find?_cons_of_pos (by simpa using hh)] at hu
        injection hu with hu
        subst hu
        match t, hh with
        | a :: elements, hh =>
          injection hh with hh
          subst hh
          obtain ⟨k, hk, _, hkd⟩ := hr.get_mem hw
          unfold denseLine at hst
          split at hst
          · cases hst
          · simp only [hkd] at hst
            rw [if_neg hns, pyIdx_nat (by omega)] at hst
            simp only [] at hst
            rw [parseAll_bad ⟨x, (by simpa using hx), hxn⟩, error_bind] at hst
            cases hst
      · refine ⟨w, hw, ?_, u, ?_, x, hx, hxn⟩
        · show w ∉ seen'
          unfold denseLine at hst
          split at hst
          · cases hst
          · split at hst
            · cases hst
            · split at hst
              · injection hst with h; injection h with _ h2; rw [← h2]; exact hns
              · split at hst
                · injection hst with h; injection h with _ h2; rw [← h2]; exact hns
                · split at hst
                  · cases hst
                  · rw [bind_eq_ok] at hst
                    obtain ⟨v, _, h⟩ := hst
                    injection h with h; injection h with _ h2
                    rw [← h2, List.mem_cons, not_or]
                    exact ⟨fun h => hh (by simp [h]), hns⟩
        · rwa [List.find?_cons_of_neg (by simpa using hh)] at hu
    · have := denseLine_error hr h1 he
      subst this
      rw [he, error_bind]

end Dissect
