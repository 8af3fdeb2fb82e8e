import Verif.Props.Invariance

/-! # C106: the order of the columns (context features) does not matter -/

namespace Dissect
open Finset
noncomputable section
variable {κ : Type} [DecidableEq κ]

/-- `π` rearranges the numbers below `n`. -/
def Rearranges (n : ℕ) (π : ℕ → ℕ) : Prop := (∀ j < n, π j < n) ∧ ∀ i < n, ∀ j < n, π i = π j → i = j

theorem Rearranges.sum {n : ℕ} {π : ℕ → ℕ} (h : Rearranges n π) (f : ℕ → ℝ) :
    ∑ j ∈ range n, f (π j) = ∑ j ∈ range n, f j := by
  have hm : Set.MapsTo π (range n) (range n) := fun j hj => by
    have := Finset.mem_range.1 hj
    simpa using h.1 j this
  have hi : Set.InjOn π (range n) := fun i hi j hj e =>
    h.2 i (Finset.mem_range.1 hi) j (Finset.mem_range.1 hj) e
  exact Finset.sum_nbij π hm hi (Finset.surjOn_of_injOn_of_card_le π hm hi le_rfl) (fun _ _ => rfl)

theorem Rearranges.surj {n : ℕ} {π : ℕ → ℕ} (h : Rearranges n π) {j : ℕ} (hj : j < n) : ∃ i < n, π i = j := by
  have hm : Set.MapsTo π (range n) (range n) := fun j hj => by
    have := Finset.mem_range.1 hj
    simpa using h.1 j this
  have hi : Set.InjOn π (range n) := fun i hi j hj e =>
    h.2 i (Finset.mem_range.1 hi) j (Finset.mem_range.1 hj) e
  obtain ⟨i, hi, e⟩ := Finset.surjOn_of_injOn_of_card_le π hm hi le_rfl (Finset.mem_coe.2 (Finset.mem_range.2 hj))
  exact ⟨i, Finset.mem_range.1 (Finset.mem_coe.1 hi), e⟩

/-- The columns of `B` are the columns of `A`, rearranged by `π`. -/
structure ColsPermuted (π : ℕ → ℕ) (A B : TMat ℝ) : Prop where
  ty : B.ty = A.ty
  nr : B.nr = A.nr
  nc : B.nc = A.nc
  vals : ∀ i < A.nr, ∀ j < A.nc, B.val.get i j = A.val.get i (π j)

/-- The two spaces have the same words in the same order, and the same features (with the same column labels, if any) in
possibly different order: column `j` of `t` is column `π j` of `s`. -/
structure SameFeatures (π : ℕ → ℕ) (s t : Space κ) : Prop where
  perm : Rearranges s.mat.nc π
  rows : t.id2row = s.id2row
  cols : ColsPermuted π s.mat t.mat
  labels : t.id2col.length = s.id2col.length
  label : ∀ j < s.id2col.length, t.id2col[j]? = s.id2col[π j]?

section mats
variable {π : ℕ → ℕ} {A B : TMat ℝ}

theorem ColsPermuted.rowSum (h : ColsPermuted π A B) (hp : Rearranges A.nc π) {i : ℕ} (hi : i < A.nr) (F : ℝ → ℝ) :
    ∑ j ∈ range B.nc, F (B.val.get i j) = ∑ j ∈ range A.nc, F (A.val.get i j) := by
  rw [h.nc, ← hp.sum (fun j => F (A.val.get i j))]
  exact Finset.sum_congr rfl (fun j hj => by rw [h.vals i hi j (Finset.mem_range.1 hj)])

theorem ColsPermuted.colSum (h : ColsPermuted π A B) {j : ℕ} (hj : j < A.nc) :
    B.val.colSum j = A.val.colSum (π j) := by
  unfold Mat.colSum
  have : B.val.nr = A.val.nr := h.nr
  rw [this]
  exact Finset.sum_congr rfl (fun i hi => h.vals i (Finset.mem_range.1 hi) j hj)

theorem ColsPermuted.total (h : ColsPermuted π A B) (hp : Rearranges A.nc π) (F : ℝ → ℝ) :
    ∑ i ∈ range B.nr, ∑ j ∈ range B.nc, F (B.val.get i j) = ∑ i ∈ range A.nr, ∑ j ∈ range A.nc, F (A.val.get i j) := by
  rw [h.nr]
  exact Finset.sum_congr rfl (fun i hi => h.rowSum hp (Finset.mem_range.1 hi) F)

theorem ColsPermuted.nonneg (h : ColsPermuted π A B) (hp : Rearranges A.nc π) :
    NonNegative B.val ↔ NonNegative A.val := by
  constructor
  · intro hb i j hi hj
    obtain ⟨k, hk, rfl⟩ := hp.surj (j := j) hj
    rw [← h.vals i hi k hk]
    exact hb i k (by rw [show B.val.nr = A.nr from h.nr]; exact hi) (by rw [show B.val.nc = A.nc from h.nc]; exact hk)
  · intro ha i j hi hj
    have hi' : i < A.nr := by rw [← h.nr]; exact hi
    have hj' : j < A.nc := by rw [← h.nc]; exact hj
    rw [h.vals i hi' j hj']
    exact ha i (π j) hi' (hp.1 j hj')

theorem ColsPermuted.ratio (h : ColsPermuted π A B) (hp : Rearranges A.nc π) {i j : ℕ} (hi : i < A.nr) (hj : j < A.nc) :
    epmiSpec B.val i j = epmiSpec A.val i (π j) ∧ ppmiSpec B.val i j = ppmiSpec A.val i (π j) := by
  have e1 : B.val.total = A.val.total := h.total hp (fun x => x)
  have e2 : B.val.rowSum i = A.val.rowSum i := h.rowSum hp hi (fun x => x)
  have e3 := h.colSum hj
  have e4 := h.vals i hi j hj
  constructor
  · unfold epmiSpec; rw [e1, e2, e3, e4]
  · unfold ppmiSpec; rw [e1, e2, e3, e4]

theorem ColsPermuted.of_yields {r r' : Py (TMat ℝ)} {f g : ℕ → ℕ → ℝ} {u : TMat ℝ} {m n : ℕ} {ty : MTy} {ρ : ℕ → ℕ}
    (hp : Rearranges n ρ)
    (h1 : Yields r ty m n f) (h2 : Yields r' ty m n g) (hr : r = .ok u)
    (e : ∀ i < m, ∀ j < n, g i j = f i (ρ j)) : ∃ v, r' = .ok v ∧ ColsPermuted ρ u v := by
  obtain ⟨u', rfl, a1, a2, a3, a4⟩ := h1
  obtain rfl := ok_inj hr
  obtain ⟨v, rfl, b1, b2, b3, b4⟩ := h2
  refine ⟨v, rfl, b1.trans a1.symm, b2.trans a2.symm, b3.trans a3.symm, ?_⟩
  intro i hi j hj
  rw [a2] at hi
  rw [a3] at hj
  rw [b4 i j hi hj, a4 i (ρ j) hi (hp.1 j hj), e i hi j hj]

/-- Every scaling treats the columns alike. -/
theorem scaling_colsPermuted (st : ScalingT) (h : ColsPermuted π A B) (hp : Rearranges A.nc π) (hr : 0 < A.nr)
    (hc : 0 < A.nc) :
    (∀ u, st.apply A none = .ok u → ∃ v, st.apply B none = .ok v ∧ ColsPermuted π u v) ∧
    (∀ e, st.apply A none = .error e → st.apply B none = .error e) := by
  have hr' : 0 < B.nr := by rw [h.nr]; exact hr
  have hc' : 0 < B.nc := by rw [h.nc]; exact hc
  have conv : ∀ {r : Py (TMat ℝ)} {g : ℕ → ℕ → ℝ}, Yields r B.ty B.nr B.nc g → Yields r A.ty A.nr A.nc g := by
    intro r g hy
    rw [← h.ty, ← h.nr, ← h.nc]
    exact hy
  have noerr : ∀ {r : Py (TMat ℝ)} {ty m n f}, Yields r ty m n f → ∀ e, r ≠ .error e := by
    rintro r ty m n f ⟨u, rfl, _⟩ e he
    cases he
  cases st with
  | epmi =>
    simp only [ScalingT.apply]
    by_cases hn : NonNegative A.val
    · have y1 := C16_epmi A hr hc hn
      have y2 := conv (C16_epmi B hr' hc' ((h.nonneg hp).2 hn))
      exact ⟨fun u hu => ColsPermuted.of_yields hp y1 y2 hu (fun i hi j hj => (h.ratio hp hi hj).1),
        fun e he => absurd he (noerr y1 e)⟩
    · have hn' : ¬ NonNegative B.val := fun hx => hn ((h.nonneg hp).1 hx)
      rw [(C16_negative_rejected A none hn).1, (C16_negative_rejected B none hn').1]
      exact ⟨fun u hu => (by cases hu), fun e he => he⟩
  | ppmi =>
    simp only [ScalingT.apply]
    by_cases hn : NonNegative A.val
    · have y1 := C16_ppmi A hr hc hn
      have y2 := conv (C16_ppmi B hr' hc' ((h.nonneg hp).2 hn))
      exact ⟨fun u hu => ColsPermuted.of_yields hp y1 y2 hu (fun i hi j hj => (h.ratio hp hi hj).2),
        fun e he => absurd he (noerr y1 e)⟩
    · have hn' : ¬ NonNegative B.val := fun hx => hn ((h.nonneg hp).1 hx)
      rw [(C16_negative_rejected A none hn).2.1, (C16_negative_rejected B none hn').2.1]
      exact ⟨fun u hu => (by cases hu), fun e he => he⟩
  | plmi =>
    simp only [ScalingT.apply]
    by_cases hn : NonNegative A.val
    · have y1 := C16_plmi A hr hc hn
      have y2 := conv (C16_plmi B hr' hc' ((h.nonneg hp).2 hn))
      exact ⟨fun u hu => ColsPermuted.of_yields hp y1 y2 hu (fun i hi j hj => by
          rw [h.vals i hi j hj, (h.ratio hp hi hj).2]),
        fun e he => absurd he (noerr y1 e)⟩
    · have hn' : ¬ NonNegative B.val := fun hx => hn ((h.nonneg hp).1 hx)
      rw [(C16_negative_rejected A none hn).2.2, (C16_negative_rejected B none hn').2.2]
      exact ⟨fun u hu => (by cases hu), fun e he => he⟩
  | plog =>
    simp only [ScalingT.apply]
    have y1 := C17_plog A hr hc
    have y2 := conv (C17_plog B hr' hc')
    exact ⟨fun u hu => ColsPermuted.of_yields hp y1 y2 hu (fun i hi j hj => by rw [h.vals i hi j hj]),
      fun e he => absurd he (noerr y1 e)⟩
  | rowNorm c =>
    simp only [ScalingT.apply]
    have hq : ∀ i < A.nr, rowQuantity c B.val i = rowQuantity c A.val i := by
      intro i hi
      cases c with
      | sum => exact h.rowSum hp hi (fun x => x)
      | length => exact congrArg Real.sqrt (h.rowSum hp hi (fun x => x ^ 2))
    obtain ⟨r, a1, a2, a3, a4, a5, a6⟩ := C18_row_normalization c A hr hc
    obtain ⟨r', b1, b2, b3, b4, b5, b6⟩ := C18_row_normalization c B hr' hc'
    rw [a1, b1]
    refine ⟨fun u hu => ?_, fun e he => by cases he⟩
    obtain rfl := ok_inj hu
    refine ⟨r', rfl, b2.trans (h.ty.trans a2.symm), b3.trans (h.nr.trans a3.symm), b4.trans (h.nc.trans a4.symm), ?_⟩
    intro i hi j hj
    rw [a3] at hi
    rw [a4] at hj
    by_cases h0 : rowQuantity c A.val i = 0
    · rw [a6 i hi h0, b6 i (by rw [h.nr]; exact hi) (by rw [hq i hi]; exact h0)]
    · rw [(a5 i hi h0).2, (b5 i (by rw [h.nr]; exact hi) (by rw [hq i hi]; exact h0)).2, hq i hi, h.vals i hi j hj]
  | norm c =>
    simp only [ScalingT.apply]
    have hq : matQuantity c B.val = matQuantity c A.val := by
      cases c with
      | sum => exact h.total hp (fun x => x)
      | length => exact congrArg Real.sqrt (h.total hp (fun x => x ^ 2))
    obtain ⟨r, a1, a2, a3, a4, a5, a6⟩ := C19_normalization c A hr hc
    obtain ⟨r', b1, b2, b3, b4, b5, b6⟩ := C19_normalization c B hr' hc'
    rw [a1, b1]
    refine ⟨fun u hu => ?_, fun e he => by cases he⟩
    obtain rfl := ok_inj hu
    refine ⟨r', rfl, b2.trans (h.ty.trans a2.symm), b3.trans (h.nr.trans a3.symm), b4.trans (h.nc.trans a4.symm), ?_⟩
    intro i hi j hj
    rw [a3] at hi
    rw [a4] at hj
    by_cases h0 : matQuantity c A.val = 0
    · rw [a6 h0, b6 (by rw [hq]; exact h0)]
      exact h.vals i hi j hj
    · rw [(a5 h0).2, (b5 (by rw [hq]; exact h0)).2, hq, h.vals i hi j hj]

theorem simVal_perm {n : ℕ} (hp : Rearranges n π) (sim : Sim) (u v u' v' : ℕ → ℝ) (hu : ∀ j < n, u' j = u (π j))
    (hv : ∀ j < n, v' j = v (π j)) : simVal sim n u' v' = simVal sim n u v := by
  rw [simVal_congr hu hv]
  have e : ∀ f : ℕ → ℝ, ∑ j ∈ range n, f (π j) = ∑ j ∈ range n, f j := fun f => hp.sum f
  have l : ∀ f : ℕ → ℝ, len2 n (fun j => f (π j)) = len2 n f := by
    intro f
    unfold len2
    rw [e (fun j => f j ^ 2)]
  cases sim with
  | dot => exact e (fun j => u j * v j)
  | cos =>
    simp only [simVal, l]
    rw [show inner n (fun j => u (π j)) (fun j => v (π j)) = inner n u v from e (fun j => u j * v j)]
  | euclid =>
    simp only [simVal]
    rw [l (fun j => u j - v j)]
  | lin =>
    simp only [simVal]
    rw [e u, e v, e (fun j => if 0 < u j * v j then u j + v j else 0)]

end mats

/-- **C106** rearranging the features changes no similarity of two words, by any measure. -/
theorem C106_similarity (π : ℕ → ℕ) (s t : Space κ) (hs : s.WF) (ht : t.WF) (hc : 0 < s.mat.nc) (h : SameFeatures π s t)
    (sim : Sim) (w1 w2 : κ) : t.getSim w1 w2 sim none = s.getSim w1 w2 sim none := by
  have hc' : 0 < t.mat.nc := by rw [h.cols.nc]; exact hc
  by_cases hw1 : w1 ∈ s.id2row
  · by_cases hw2 : w2 ∈ s.id2row
    · obtain ⟨i, hi⟩ := Space.hasWord_of_mem hw1
      obtain ⟨j, hj⟩ := Space.hasWord_of_mem hw2
      have hi' : t.HasWord i w1 := by rw [Space.HasWord, h.rows]; exact hi
      have hj' : t.HasWord j w2 := by rw [Space.HasWord, h.rows]; exact hj
      rw [Space.getSim_words2 (target := s) (space2 := none) rfl hs hs hc rfl hi hj,
        Space.getSim_words2 (target := t) (space2 := none) rfl ht ht hc' rfl hi' hj', h.cols.nc]
      exact congrArg _ (simVal_perm h.perm sim _ _ _ _ (h.cols.vals i (Space.word_lt hs hi))
        (h.cols.vals j (Space.word_lt hs hj)))
    · rw [C08_missing s s none sim w1 w2 rfl hs hs hc (Or.inr hw2),
        C08_missing t t none sim w1 w2 rfl ht ht hc' (Or.inr (by rw [h.rows]; exact hw2))]
  · rw [C08_missing s s none sim w1 w2 rfl hs hs hc (Or.inl hw1),
      C08_missing t t none sim w1 w2 rfl ht ht hc' (Or.inl (by rw [h.rows]; exact hw1))]

/-- **C106** nor any list of neighbours. -/
theorem C106_neighbours (π : ℕ → ℕ) (s t : Space κ) (hs : s.WF) (ht : t.WF) (hc : 0 < s.mat.nc) (h : SameFeatures π s t)
    (sim : Sim) (w : κ) (n : ℤ) : t.getNeighbours w n sim none = s.getNeighbours w n sim none := by
  by_cases hw : w ∈ s.id2row
  · have hpos : 0 < s.id2row.length := List.length_pos_of_mem hw
    obtain ⟨res, sc, e1, e2, e3⟩ := C09_top_n s s none sim w n rfl hs hs hc rfl hw hpos
    obtain ⟨res', sc', f1, f2, f3⟩ := C09_top_n t t none sim w n rfl ht ht (by rw [h.cols.nc]; exact hc) rfl
      (by rw [h.rows]; exact hw) (by rw [h.rows]; exact hpos)
    rw [e1, f1]
    rw [h.rows] at f2 f3
    rw [e3.unique (fun x hx => ?_) f3]
    have := C106_similarity π s t hs ht hc h sim w x
    rw [e2 x hx, f2 x hx] at this
    exact (ok_inj this).symm
  · rw [C09_unknown_word s none sim w n hs hw, C09_unknown_word t none sim w n ht (by rw [h.rows]; exact hw)]

/-- **C106** a scaling applied to the rearranged space gives the rearranged result (or the same exception). -/
theorem C106_scaling (env : Env) (st : ScalingT) (π : ℕ → ℕ) (s t : Space κ) (hs : s.WF) (ht : t.WF) (hr : 0 < s.mat.nr)
    (hc : 0 < s.mat.nc) (h : SameFeatures π s t) :
    (∀ s', s.apply env (.scaling st) = .ok s' → ∃ t', t.apply env (.scaling st) = .ok t' ∧ SameFeatures π s' t' ∧
      s'.WF ∧ t'.WF ∧ s'.mat.nr = s.mat.nr ∧ s'.mat.nc = s.mat.nc) ∧
    (∀ e, s.apply env (.scaling st) = .error e → t.apply env (.scaling st) = .error e) := by
  obtain ⟨k1, k2⟩ := scaling_colsPermuted st h.cols h.perm hr hc
  have okCase : ∀ (x : Space κ), x.WF → 0 < x.mat.nr → ∀ m, st.apply x.mat none = .ok m → ∃ x',
      x.apply env (.scaling st) = .ok x' ∧ x'.mat = m ∧ x'.id2row = x.id2row ∧ x'.id2col = x.id2col ∧ x'.WF := by
    intro x hx hxr m hm
    obtain ⟨_, hnr, hnc⟩ := applyT_shape hxr hm
    have hop : (Trans.createOp (.scaling st) : Op κ).apply env x.mat =
        .ok (.scaling st (if st.usesStats then some (st.columnStats x.mat) else none), m) := by
      simp only [Trans.createOp, Op.apply, hm, ok_bind, pure_eq_ok]
    have hnew := Space.new_ok (ops := x.ops ++ [.scaling st (if st.usesStats then some (st.columnStats x.mat) else none)])
      (sh := none) (Space.resolveMap_some hx.rows) (Space.resolveMap_some hx.cols) (hnr.trans hx.nrows)
      (fun hne => hnc.trans (hx.ncols hne)) (by simp)
    have hap : x.apply env (.scaling st) = Space.new m x.id2row x.id2col (some x.row2id)
        (some x.col2id) (x.ops ++ [.scaling st (if st.usesStats then some (st.columnStats x.mat) else none)]) none := by
      unfold Space.apply
      rw [hop]
      rfl
    rw [hnew] at hap
    exact ⟨_, hap, rfl, rfl, rfl, (Space.new_eq_ok hnew).2.2.2.2.2.2.2⟩
  have hr' : 0 < t.mat.nr := by rw [h.cols.nr]; exact hr
  constructor
  · intro s' hs'
    obtain ⟨c1, _, c3, c4, c5⟩ := C05_scaling_keeps_columns env s s' st hr hs'
    obtain ⟨m, hm, hcp⟩ := k1 _ c5
    obtain ⟨t', ht', m1, m2, m3, m4⟩ := okCase t ht hr' m hm
    obtain ⟨_, _, _, _, _, _, hrows, _, _, hwf, _⟩ := apply_eq_ok hs'
    refine ⟨t', ht', ⟨by rw [c4]; exact h.perm, by rw [m2, hrows]; exact h.rows, by rw [m1]; exact hcp,
      by rw [m3, c1]; exact h.labels, by rw [m3, c1]; exact h.label⟩, hwf, m4, c3, c4⟩
  · intro e he
    cases hm : st.apply s.mat none with
    | ok m =>
      obtain ⟨s', hs', _⟩ := okCase s hs hr m hm
      rw [hs'] at he
      cases he
    | error e' =>
      have hfail : ∀ (x : Space κ), st.apply x.mat none = .error e' → x.apply env (.scaling st) = .error e' := by
        intro x hx
        unfold Space.apply
        simp only [Trans.createOp, Op.apply, hx, error_bind]
      rw [hfail s hm] at he
      injection he with he
      subst he
      exact hfail t (k2 _ hm)

/-- **C106** so any sequence of scalings followed by any query gives the same answers. -/
theorem C106_sequences (env : Env) (sts : List ScalingT) (π : ℕ → ℕ) (s t s' : Space κ) (hs : s.WF) (ht : t.WF)
    (hr : 0 < s.mat.nr) (hc : 0 < s.mat.nc) (h : SameFeatures π s t) (ha : s.applyAll env (sts.map .scaling) = .ok s') :
    ∃ t', t.applyAll env (sts.map .scaling) = .ok t' ∧ SameFeatures π s' t' ∧
      (∀ sim w1 w2, t'.getSim w1 w2 sim none = s'.getSim w1 w2 sim none) ∧
      ∀ sim w n, t'.getNeighbours w n sim none = s'.getNeighbours w n sim none := by
  induction sts generalizing s t with
  | nil =>
    obtain rfl := ok_inj ha
    exact ⟨t, rfl, h, C106_similarity π s t hs ht hc h, C106_neighbours π s t hs ht hc h⟩
  | cons st sts ih =>
    simp only [List.map_cons, Space.applyAll, bind_eq_ok] at ha
    obtain ⟨s1, h1, h2⟩ := ha
    obtain ⟨t1, a1, a2, a3, a4, a5, a6⟩ := (C106_scaling env st π s t hs ht hr hc h).1 s1 h1
    obtain ⟨t', b1, b2⟩ := ih s1 t1 a3 a4 (by rw [a5]; exact hr) (by rw [a6]; exact hc) a2 h2
    exact ⟨t', by simp only [List.map_cons, Space.applyAll, a1, ok_bind, b1], b2⟩

/-- Non-vacuity of C106: the 2 × 3 space of counts with its columns reversed. -/
theorem ex_same_features : ∃ s t : Space String, s.WF ∧ t.WF ∧ SameFeatures (fun j => 2 - j) s t ∧ s.id2col ≠ t.id2col ∧ 0 < s.mat.nr ∧
    0 < s.mat.nc ∧ NonNegative s.mat.val := by
  obtain ⟨s, hs, hm, hr, hc, _, _⟩ := ex_space .dense
  obtain ⟨t, ht0⟩ := (C01_accepts_iff (⟨.dense, Mat.of 2 3 (fun i j => (exMat .dense).val.get i (2 - j))⟩ : TMat ℝ) s.id2row
    s.id2col.reverse none none [] none).2 ⟨hs.rows.nodup, List.nodup_reverse.2 hs.cols.nodup, by simp, by simp,
      by rw [hr]; rfl, by rw [hc]; intro _; rfl, by simp⟩
  obtain ⟨ht, htm, htr, htc, _⟩ := C01_result _ _ _ _ _ _ _ t ht0
  refine ⟨s, t, hs, ht, ⟨?_, htr, ?_, by rw [htc, List.length_reverse], ?_⟩, ?_, by rw [hm]; simp [exMat, TMat.nr],
    by rw [hm]; simp [exMat, TMat.nc], by
      rw [hm]
      intro i j hi hj
      rw [exMat, Mat.of_get]
      split <;> positivity⟩
  · have : s.mat.nc = 3 := by rw [hm]; rfl
    rw [this]
    exact ⟨fun j hj => by show 2 - j < 3; omega, fun i hi j hj h => by have h2 : 2 - i = 2 - j := h; omega⟩
  · rw [hm, htm]
    refine ⟨rfl, rfl, rfl, fun i hi j hj => ?_⟩
    exact Mat.of_get_lt hi hj
  · intro j hj
    rw [htc, hc]
    rw [hc] at hj
    have : j < 3 := hj
    have : j = 0 ∨ j = 1 ∨ j = 2 := by omega
    rcases this with rfl | rfl | rfl <;> rfl
  · rw [htc, hc]
    decide

end
end Dissect
