import Verif.Spec.Lexical
import Verif.Lemmas.Train
import Verif.Props.Partitions
import Mathlib.Data.List.Sort

/-! # Lemmas about lexical functions -/

namespace Dissect
open Finset
noncomputable section
variable {κ : Type} [DecidableEq κ]

/-- Two non-empty matrices with the same number of rows are brought to the class of the wider one. -/
theorem resolve_largest (s t : TMat ℝ) (hs : 0 < s.nr ∧ 0 < s.nc) (ht : 0 < t.nr ∧ 0 < t.nc) (hr : s.nr = t.nr) :
    TMat.resolveTypeConflict [s, t] (TMat.typeOfLargest [s, t]) =
      .ok [⟨if s.nc < t.nc then t.ty else s.ty, s.val⟩, ⟨if s.nc < t.nc then t.ty else s.ty, t.val⟩] := by
  have hl : TMat.typeOfLargest [s, t] = some (if s.nc < t.nc then t.ty else s.ty) := by
    have hp : 0 < s.nr * s.nc := Nat.mul_pos hs.1 hs.2
    unfold TMat.typeOfLargest
    simp only [List.foldl_cons, List.foldl_nil, gt_iff_lt, hp, if_true]
    rw [← hr]
    by_cases h : s.nc < t.nc
    · rw [if_pos h, if_pos (Nat.mul_lt_mul_of_pos_left h hs.1)]
    · rw [if_neg h, if_neg]
      intro h'
      exact h (Nat.lt_of_mul_lt_mul_left h')
  by_cases hty : s.ty = t.ty
  · have : TMat.typeConflict [s, t] = false := by simp [TMat.typeConflict, hty]
    unfold TMat.resolveTypeConflict
    rw [this]
    simp only [Bool.false_eq_true, if_false, hty, ite_self]
    have h2 : s = ⟨t.ty, s.val⟩ := by rw [← hty]
    rw [← h2]
  · have : TMat.typeConflict [s, t] = true := by simp [TMat.typeConflict, Ne.symm hty]
    unfold TMat.resolveTypeConflict
    rw [this, hl]
    simp only [if_true, TMat.toTypeAll, TMat.toType_ok _ (fun _ => hs : s.NE), TMat.toType_ok _ (fun _ => ht : t.NE)]

theorem foldl_vstack (w : ℕ) (ts : List (TMat ℝ)) : ∀ (A : Mat ℝ), A.nc = w → (∀ u ∈ ts, u.nc = w ∧ u.nr = 1) →
    (ts.foldl (fun acc u => acc.vstack u.val) A).nr = A.nr + ts.length ∧
    (ts.foldl (fun acc u => acc.vstack u.val) A).nc = w ∧
    (∀ k j, k < A.nr → (ts.foldl (fun acc u => acc.vstack u.val) A).get k j = A.get k j) ∧
    ∀ k u j, ts[k]? = some u → (ts.foldl (fun acc u => acc.vstack u.val) A).get (A.nr + k) j = u.val.get 0 j := by
  induction ts with
  | nil => intro A hA _; exact ⟨rfl, hA, fun _ _ _ => rfl, by simp⟩
  | cons t ts ih =>
    intro A hA h
    obtain ⟨ht, ht'⟩ := h t (by simp)
    have hnc : A.nc = t.val.nc := hA.trans ht.symm
    obtain ⟨i1, i2, i3, i4⟩ := ih (A.vstack t.val) hA (fun u hu => h u (by simp [hu]))
    simp only [List.foldl_cons]
    have hnr : (A.vstack t.val).nr = A.nr + 1 := by
      show A.nr + t.val.nr = _
      rw [show t.val.nr = 1 from ht']
    refine ⟨?_, i2, ?_, ?_⟩
    · rw [i1, hnr, List.length_cons]; omega
    · intro k j hk
      rw [i3 k j (by omega), Mat.vstack_get hnc, if_pos hk]
    · intro k u j hk
      cases k with
      | zero =>
        simp only [List.getElem?_cons_zero, Option.some.injEq] at hk
        subst hk
        rw [Nat.add_zero, i3 _ j (by omega), Mat.vstack_get hnc, if_neg (by omega), Nat.sub_self]
      | succ k =>
        have := i4 k u j (by simpa using hk)
        rw [hnr] at this
        rw [← this]
        congr 1
        omega

/-- Stacking 1-row matrices. -/
theorem naryVstack_ok {ty : MTy} {w : ℕ} (hw : 0 < w) (l : List (TMat ℝ)) (hl : l ≠ [])
    (h : ∀ u ∈ l, u.ty = ty ∧ u.nc = w ∧ u.nr = 1) :
    ∃ M : Mat ℝ, TMat.naryVstack ty l = .ok ⟨ty, M⟩ ∧ M.nr = l.length ∧ M.nc = w ∧
      ∀ k u j, l[k]? = some u → M.get k j = u.val.get 0 j := by
  cases l with
  | nil => exact absurd rfl hl
  | cons t ts =>
    obtain ⟨h1, h2, h3⟩ := h t (by simp)
    have h2' : t.val.nc = w := h2
    have h3' : t.val.nr = 1 := h3
    obtain ⟨i1, i2, i3, i4⟩ := foldl_vstack w ts t.val h2 (fun u hu => (h u (by simp [hu])).2)
    refine ⟨ts.foldl (fun acc u => acc.vstack u.val) t.val, ?_, ?_, i2, ?_⟩
    · simp only [TMat.naryVstack]
      rw [if_pos, if_pos]
      · exact TMat.wrap_ok_pos (by omega) (by omega)
      · rw [List.all_eq_true]
        intro u hu
        rw [decide_eq_true_eq, (h u (by simp [hu])).2.1, h2]
      · rw [List.all_eq_true]
        intro u hu
        rw [decide_eq_true_eq, (h u hu).1]
    · rw [i1, h3', List.length_cons]; omega
    · intro k u j hk
      cases k with
      | zero =>
        simp only [List.getElem?_cons_zero, Option.some.injEq] at hk
        subst hk
        exact i3 0 j (by omega)
      | succ k =>
        have := i4 k u j (by simpa using hk)
        rw [← this, h3']
        congr 1
        omega

/-! ### Composing -/

theorem reshape_row_get (F : Mat ℝ) (m n : ℕ) (hr : F.nr = 1) (hc : F.nc = m * n) {j i : ℕ} (hj : j < m) (hi : i < n) :
    (F.reshape m n).get j i = F.get 0 (j * n + i) := by
  unfold Mat.reshape
  rw [Mat.of_get_lt hj hi]
  have hlt : j * n + i < F.nc := by
    rw [hc]
    calc j * n + i < j * n + n := by omega
      _ = (j + 1) * n := by ring
      _ ≤ m * n := Nat.mul_le_mul_right _ hj
  rw [Nat.div_eq_of_lt hlt, Nat.mod_eq_of_lt hlt]

/-- `_compose`: matrix times vector. -/
theorem lexCompose_ok (ic : Bool) {ty : MTy} {F V : Mat ℝ} (sh : List ℕ) (m n : ℕ) (hsh : sh ≠ []) (hn : 0 < n) (hm : 0 < m)
    (hp : sh.prod = m) (f1 : F.nr = 1) (f2 : F.nc = m * (if ic then n + 1 else n)) (v1 : V.nr = 1) (v2 : V.nc = n) :
    ∃ R : Mat ℝ, lexCompose ic ⟨ty, F⟩ ⟨ty, V⟩ (sh ++ [if ic then n + 1 else n]) = .ok ⟨ty, R⟩ ∧ R.nr = 1 ∧ R.nc = m ∧
      ∀ j, j < m → R.get 0 j = lexVec n ic (F.get 0) (V.get 0) j := by
  set w := if ic then n + 1 else n with hw
  have hwpos : 0 < w := by rw [hw]; split <;> omega
  have hF : (⟨ty, F⟩ : TMat ℝ).reshape m w = .ok ⟨ty, F.reshape m w⟩ := by
    unfold TMat.reshape
    rw [if_pos]
    show F.nr * F.nc = m * w
    rw [f1, f2, one_mul]
  have hT : (⟨ty, V⟩ : TMat ℝ).transpose = .ok ⟨ty, V.transpose⟩ :=
    TMat.transpose_ok (s := ⟨ty, V⟩) (show 0 < V.nr by omega) (show 0 < V.nc by omega)
  obtain ⟨x, xs, hxs⟩ : ∃ x xs, sh = x :: xs := by
    cases sh with
    | nil => exact absurd rfl hsh
    | cons x xs => exact ⟨x, xs, rfl⟩
  have key : ∀ T : Mat ℝ, T.nr = w → T.nc = 1 → (if ic then (⟨ty, V.transpose⟩ : TMat ℝ).padd 0 1 else .ok ⟨ty, V.transpose⟩) =
      .ok ⟨ty, T⟩ → lexCompose ic ⟨ty, F⟩ ⟨ty, V⟩ (sh ++ [w]) = .ok ⟨ty, ((F.reshape m w).mul T).transpose⟩ := by
    intro T t1 t2 hpad
    unfold lexCompose
    rw [List.getLast?_append, List.getLast?_singleton, Option.some_or, List.dropLast_concat, hxs]
    simp only
    rw [← hxs, hp, hF, ok_bind, hT, ok_bind]
    have hmul : (⟨ty, F.reshape m w⟩ : TMat ℝ).mul ⟨ty, T⟩ = .ok ⟨ty, (F.reshape m w).mul T⟩ :=
      TMat.mul_ok rfl (show (F.reshape m w).nc = T.nr by rw [t1]; rfl) hm (show 0 < T.nc by omega)
    have htr : (⟨ty, (F.reshape m w).mul T⟩ : TMat ℝ).transpose = .ok ⟨ty, ((F.reshape m w).mul T).transpose⟩ :=
      TMat.transpose_ok (s := ⟨ty, (F.reshape m w).mul T⟩) hm (show 0 < T.nc by omega)
    cases ic with
    | false =>
      simp only [Bool.false_eq_true, if_false] at hpad ⊢
      rw [hpad, ok_bind, hmul, ok_bind, htr]
    | true =>
      simp only [if_true] at hpad ⊢
      rw [hpad, ok_bind, hmul, ok_bind, htr]
  cases ic with
  | false =>
    simp only [Bool.false_eq_true, if_false] at hw
    refine ⟨_, key V.transpose (by simp; omega) (by simp; omega) rfl, by simp; omega, rfl, ?_⟩
    intro j hj
    rw [Mat.transpose_get, Mat.mul_get]
    simp only [lexVec, Bool.false_eq_true, if_false, add_zero, Mat.reshape_nc, hw]
    refine Finset.sum_congr rfl (fun i hi => ?_)
    have hi' := Finset.mem_range.1 hi
    rw [reshape_row_get F m n f1 (by rw [f2, hw]) hj hi', Mat.transpose_get]
  | true =>
    simp only [if_true] at hw
    have hpad : (⟨ty, V.transpose⟩ : TMat ℝ).padd 0 1 = .ok ⟨ty, V.transpose.vstack (Mat.const 1 1 1)⟩ := by
      unfold TMat.padd
      rw [if_pos rfl]
      have hnc : (⟨ty, V.transpose⟩ : TMat ℝ).nc = 1 := v1
      rw [hnc, TMat.ofNumpy_ok (A := Mat.const 1 1 (1:ℝ)) (by simp [Mat.const]) (by simp [Mat.const])]
      exact TMat.vstack_ok (s := ⟨ty, V.transpose⟩) (t := ⟨ty, Mat.const 1 1 1⟩) rfl v1
        (show 0 < V.nc + 1 by omega) (show 0 < V.nr by omega)
    refine ⟨_, key (V.transpose.vstack (Mat.const 1 1 1)) (by show V.nc + 1 = w; omega) v1 (by simpa using hpad), v1, rfl, ?_⟩
    intro j hj
    rw [Mat.transpose_get, Mat.mul_get]
    simp only [lexVec, if_true, Mat.reshape_nc, hw]
    rw [Finset.sum_range_succ]
    have hvs : V.transpose.nc = (Mat.const 1 1 (1:ℝ)).nc := v1
    congr 1
    · refine Finset.sum_congr rfl (fun i hi => ?_)
      have hi' := Finset.mem_range.1 hi
      rw [reshape_row_get F m (n + 1) f1 (by rw [f2, hw]) hj (by omega), Mat.vstack_get hvs,
        if_pos (by show i < V.nc; omega), Mat.transpose_get]
    · rw [reshape_row_get F m (n + 1) f1 (by rw [f2, hw]) hj (by omega), Mat.vstack_get hvs,
        if_neg (by show ¬ n < V.nc; omega), show V.transpose.nr = V.nc from rfl, v2, Nat.sub_self]
      simp [Mat.const, Mat.of_get]

theorem getRow_vec {s : Space κ} (h : s.WF) (hn : 0 < s.mat.nc) {w : κ} (hw : w ∈ s.id2row) :
    ∃ R : Mat ℝ, s.getRow w = .ok ⟨s.mat.ty, R⟩ ∧ R.nr = 1 ∧ R.nc = s.mat.nc ∧ R.get 0 = s.vecOf w := by
  refine ⟨s.mat.val.row (s.id2row.idxOf w), ?_, rfl, rfl, ?_⟩
  · rw [Space.getRow_of_word h (Space.hasWord_idxOf hw)]
    exact TMat.wrap_ok_pos (by simp [Mat.row]) hn
  · funext j
    exact Mat.selRows_get_some rfl j

theorem lexOne_ok (ic : Bool) {fs arg : Space κ} (hf : fs.WF) (ha : arg.WF) (sh : List ℕ) (hsh : sh ≠ [])
    (hs : fs.elemShape = sh ++ [if ic then arg.mat.nc + 1 else arg.mat.nc]) (hn : 0 < arg.mat.nc) (hm : 0 < sh.prod)
    {f w : κ} (hfw : f ∈ fs.id2row) (hw : w ∈ arg.id2row) :
    ∃ R : Mat ℝ, lexOne ic fs arg f w = .ok ⟨if fs.mat.nc < arg.mat.nc then arg.mat.ty else fs.mat.ty, R⟩ ∧ R.nr = 1 ∧
      R.nc = sh.prod ∧ ∀ j, j < sh.prod → R.get 0 j = lexVec arg.mat.nc ic (fs.vecOf f) (arg.vecOf w) j := by
  have hnc : fs.mat.nc = sh.prod * (if ic then arg.mat.nc + 1 else arg.mat.nc) := by
    have := hf.shape
    rw [hs, List.prod_append, List.prod_singleton] at this
    exact this.symm
  have hfpos : 0 < fs.mat.nc := by
    rw [hnc]
    exact Nat.mul_pos hm (by split <;> omega)
  obtain ⟨F, e1, f1, f2, gF⟩ := getRow_vec hf hfpos hfw
  obtain ⟨V, e2, v1, v2, gV⟩ := getRow_vec ha hn hw
  unfold lexOne
  rw [e1, ok_bind, e2, ok_bind, resolve_largest ⟨fs.mat.ty, F⟩ ⟨arg.mat.ty, V⟩
    ⟨show 0 < F.nr by omega, show 0 < F.nc by omega⟩ ⟨show 0 < V.nr by omega, show 0 < V.nc by omega⟩ (f1.trans v1.symm), ok_bind]
  simp only
  rw [hs]
  rw [show (⟨fs.mat.ty, F⟩ : TMat ℝ).nc = fs.mat.nc from f2, show (⟨arg.mat.ty, V⟩ : TMat ℝ).nc = arg.mat.nc from v2]
  rw [← gF, ← gV]
  exact lexCompose_ok ic sh sh.prod arg.mat.nc hsh hn hm rfl f1 (f2.trans hnc) v1 v2

theorem lexLoop_ok (ic : Bool) {fs arg : Space κ} (hf : fs.WF) (ha : arg.WF) (sh : List ℕ) (hsh : sh ≠ [])
    (hs : fs.elemShape = sh ++ [if ic then arg.mat.nc + 1 else arg.mat.nc]) (hn : 0 < arg.mat.nc) (hm : 0 < sh.prod)
    (l : List (Triple κ)) (hl : ∀ t ∈ l, t.1 ∈ fs.id2row ∧ t.2.1 ∈ arg.id2row) :
    ∃ vs : List (TMat ℝ), lexLoop ic fs arg (l.map (·.1)) (l.map (·.2.1)) = .ok vs ∧ vs.length = l.length ∧
      (∀ u ∈ vs, u.ty = (if fs.mat.nc < arg.mat.nc then arg.mat.ty else fs.mat.ty) ∧ u.nc = sh.prod ∧ u.nr = 1) ∧
      ∀ (k : ℕ) (t : Triple κ) (u : TMat ℝ), l[k]? = some t → vs[k]? = some u → ∀ j, j < sh.prod →
        u.val.get 0 j = lexVec arg.mat.nc ic (fs.vecOf t.1) (arg.vecOf t.2.1) j := by
  induction l with
  | nil => exact ⟨[], rfl, rfl, by simp, by simp⟩
  | cons t l ih =>
    obtain ⟨vs, i1, i2, i3, i4⟩ := ih (fun u hu => hl u (by simp [hu]))
    obtain ⟨h1, h2⟩ := hl t (by simp)
    obtain ⟨R, e, r1, r2, gR⟩ := lexOne_ok ic hf ha sh hsh hs hn hm h1 h2
    refine ⟨⟨if fs.mat.nc < arg.mat.nc then arg.mat.ty else fs.mat.ty, R⟩ :: vs, ?_, by simp [i2], ?_, ?_⟩
    · simp only [List.map_cons, lexLoop]
      rw [e, ok_bind, i1, ok_bind]
      rfl
    · intro u hu
      rcases List.mem_cons.1 hu with rfl | hu
      · exact ⟨rfl, r2, r1⟩
      · exact i3 u hu
    · intro k t' u hk hu j hj
      cases k with
      | zero =>
        simp only [List.getElem?_cons_zero, Option.some.injEq] at hk hu
        subst hk hu
        exact gR j hj
      | succ k =>
        simp only [List.getElem?_cons_succ] at hk hu
        exact i4 k t' u hk hu j hj

/-! ### Training: runs of a sorted list -/

omit [DecidableEq κ] in
/-- A stable sort keeps a group of mutually comparable elements in order. -/
theorem stable_filter {α : Type} (le : α → α → Bool) (htrans : ∀ a b c, le a b = true → le b c = true → le a c = true)
    (htotal : ∀ a b, (le a b || le b a) = true) (l : List α) (p : α → Bool)
    (hp : ∀ x y, p x = true → p y = true → le x y = true) : (l.mergeSort le).filter p = l.filter p := by
  have hs : (l.filter p).Sublist (l.mergeSort le) := by
    refine List.sublist_mergeSort htrans htotal ?_ List.filter_sublist
    refine List.pairwise_of_forall_mem_list (fun x hx y hy => ?_)
    exact hp x y (List.mem_filter.1 hx).2 (List.mem_filter.1 hy).2
  have hs' : (l.filter p).Sublist ((l.mergeSort le).filter p) := by
    have := hs.filter p
    rwa [List.filter_filter, show (fun a => p a && p a) = p from by funext a; simp] at this
  symm
  refine hs'.eq_of_length ?_
  exact ((List.mergeSort_perm l le).filter p).length_eq.symm

/-- In a sorted list a maximal run contains all occurrences of its element. -/
theorem run_index {l : List κ} {le : κ → κ → Bool} (hsort : l.Pairwise (fun a b => le a b = true))
    (hanti : ∀ a b, le a b = true → le b a = true → a = b) {b e : ℕ} (h : MaxRun l b e) (i : ℕ) (hi : i < l.length) :
    l[i]? = l[b]? ↔ b ≤ i ∧ i < e := by
  have hb : b < l.length := lt_of_lt_of_le h.lt h.le
  have hle : ∀ {i j : ℕ} (hi : i < l.length) (hj : j < l.length), i < j → le l[i] l[j] = true :=
    fun hi hj hij => List.pairwise_iff_getElem.1 hsort _ _ hi hj hij
  constructor
  · intro heq
    rw [List.getElem?_eq_getElem hi, List.getElem?_eq_getElem hb, Option.some.injEq] at heq
    constructor
    · by_contra hlt
      have hlt : i < b := by omega
      rcases h.left with h0 | h0
      · omega
      · apply h0
        rw [List.getElem?_eq_getElem (show b - 1 < l.length by omega), List.getElem?_eq_getElem hb]
        congr 1
        have h1 : le l[b - 1] l[b] = true := hle _ _ (by omega)
        refine hanti _ _ h1 ?_
        by_cases hib : i = b - 1
        · rw [← heq]
          subst hib
          rw [heq]
          rw [← heq] at h1 ⊢
          exact h1
        · rw [← heq]
          exact hle hi _ (by omega)
    · by_contra hge
      rcases h.right with h0 | h0
      · omega
      · apply h0
        have he : e < l.length := by omega
        rw [List.getElem?_eq_getElem he, List.getElem?_eq_getElem hb]
        congr 1
        have hbe := h.lt
        have h1 : le l[b] l[e] = true := hle _ _ hbe
        refine hanti _ _ ?_ h1
        by_cases hie : i = e
        · subst hie
          rw [heq]
          rw [heq] at h1
          exact h1
        · rw [← heq]
          exact hle _ hi (by omega)
  · rintro ⟨h1, h2⟩
    exact h.same i h1 h2

theorem slice_eq_filter {α : Type} (v : List α) (p : α → Bool) (b e : ℕ) (hbe : b ≤ e)
    (h : ∀ i (hi : i < v.length), p v[i] = true ↔ b ≤ i ∧ i < e) : (v.take e).drop b = v.filter p := by
  have hsplit : v = v.take b ++ ((v.take e).drop b ++ v.drop e) := by
    have h1 : v.take b ++ (v.take e).drop b = v.take e := by
      conv_rhs => rw [← List.take_append_drop b (v.take e)]
      rw [List.take_take, Nat.min_eq_left hbe]
    rw [← List.append_assoc, h1, List.take_append_drop]
  conv_rhs => rw [hsplit]
  rw [List.filter_append, List.filter_append]
  have e1 : (v.take b).filter p = [] := by
    rw [List.filter_eq_nil_iff]
    intro x hx hpx
    obtain ⟨i, hi, rfl⟩ := List.mem_iff_getElem.1 hx
    rw [List.length_take] at hi
    rw [List.getElem_take, h i (by omega)] at hpx
    omega
  have e3 : (v.drop e).filter p = [] := by
    rw [List.filter_eq_nil_iff]
    intro x hx hpx
    obtain ⟨i, hi, rfl⟩ := List.mem_iff_getElem.1 hx
    rw [List.length_drop] at hi
    rw [List.getElem_drop, h _ (by omega)] at hpx
    omega
  have e2 : ((v.take e).drop b).filter p = (v.take e).drop b := by
    rw [List.filter_eq_self]
    intro x hx
    obtain ⟨i, hi, rfl⟩ := List.mem_iff_getElem.1 hx
    rw [List.length_drop, List.length_take] at hi
    rw [List.getElem_drop, List.getElem_take, h _ (by omega)]
    omega
  rw [e1, e2, e3, List.nil_append, List.append_nil]

/-- Every position lies in a maximal run. -/
theorem exists_run (l : List κ) (i : ℕ) (hi : i < l.length) : ∃ b e, MaxRun l b e ∧ b ≤ i ∧ i < e := by
  have hb : ∃ b, b ≤ i ∧ ∀ k, b ≤ k → k ≤ i → l[k]? = l[i]? := ⟨i, le_rfl, fun k h1 h2 => by rw [show k = i by omega]⟩
  have he : ∃ e, i < e ∧ (e = l.length ∨ l[e]? ≠ l[i]?) := ⟨l.length, hi, Or.inl rfl⟩
  classical
  set b := Nat.find hb with hbd
  set e := Nat.find he with hed
  obtain ⟨b1, b2⟩ := Nat.find_spec hb
  obtain ⟨e1, e2⟩ := Nat.find_spec he
  rw [← hbd] at b1 b2
  rw [← hed] at e1 e2
  have hsame : ∀ k, b ≤ k → k < e → l[k]? = l[i]? := by
    intro k h1 h2
    by_cases hk : k ≤ i
    · exact b2 k h1 hk
    · by_contra hne
      exact Nat.find_min he (m := k) (by omega) ⟨by omega, Or.inr hne⟩
  have hle : e ≤ l.length := Nat.find_min' he ⟨hi, Or.inl rfl⟩
  have hbi : l[b]? = l[i]? := b2 b le_rfl b1
  refine ⟨b, e, ⟨by omega, hle, fun k h1 h2 => (hsame k h1 h2).trans hbi.symm, ?_, ?_⟩, b1, e1⟩
  · by_cases h0 : b = 0
    · exact Or.inl h0
    · right
      intro heq
      refine Nat.find_min hb (m := b - 1) (by omega) ⟨by omega, fun k h1 h2 => ?_⟩
      by_cases hk : k = b - 1
      · rw [hk, heq, hbi]
      · exact b2 k (by omega) h2
  · rcases e2 with h | h
    · exact Or.inl h
    · right; rw [hbi]; exact h

/-- What `get_partitions` returns on a sorted list of samples: the groups with enough samples. -/
theorem partitions_sorted {le : κ → κ → Bool} (hanti : ∀ a b, le a b = true → le b a = true → a = b)
    (v : List (Triple κ)) (hsort : (v.map (·.1)).Pairwise (fun a b => le a b = true)) (ms : ℤ) (hms : 1 ≤ ms) :
    ∃ keys ranges, getPartitions (v.map (·.1)) ms = .ok (keys, ranges) ∧ keys.length = ranges.length ∧ keys.Nodup ∧
      keys.Pairwise (fun a b => le a b = true) ∧
      (∀ f, f ∈ keys ↔ ms ≤ ((v.filter (fun t => decide (t.1 = f))).length : ℤ)) ∧
      ∀ (i : ℕ) (r : ℕ × ℕ) (f : κ), ranges[i]? = some r → keys[i]? = some f →
        (v.take r.2).drop r.1 = v.filter (fun t => decide (t.1 = f)) := by
  obtain ⟨keys, ranges, h1, h2, h3, h4, h5⟩ := C47_maximal_runs (v.map (·.1)) ms hms
  have hslice : ∀ b e f, MaxRun (v.map (·.1)) b e → (v.map (·.1))[b]? = some f →
      (v.take e).drop b = v.filter (fun t => decide (t.1 = f)) := by
    intro b e f hr hf
    refine slice_eq_filter v _ b e (le_of_lt hr.lt) (fun i hi => ?_)
    rw [decide_eq_true_eq, ← run_index hsort hanti hr i (by simpa using hi), hf, List.getElem?_map,
      List.getElem?_eq_getElem hi]
    simp
  have hlen : ∀ b e, MaxRun (v.map (·.1)) b e → ((v.take e).drop b).length = e - b := by
    intro b e hr
    have := hr.le
    rw [List.length_map] at this
    rw [List.length_drop, List.length_take, Nat.min_eq_left this]
  have hkey : ∀ i, i < keys.length → ∃ r f, ranges[i]? = some r ∧ keys[i]? = some f ∧ MaxRun (v.map (·.1)) r.1 r.2 ∧
      ms ≤ (r.2 : ℤ) - (r.1 : ℤ) ∧ (v.map (·.1))[r.1]? = some f := by
    intro i hi
    have hr : ranges[i]? = some ranges[i] := List.getElem?_eq_getElem (by omega)
    have hk : keys[i]? = some keys[i] := List.getElem?_eq_getElem hi
    have := (h2 ranges[i].1 ranges[i].2).1 (List.mem_of_getElem? hr)
    exact ⟨_, _, hr, hk, this.1, this.2, h5 i _ _ hr hk⟩
  have hrlt : ∀ {i j : ℕ} {r s : ℕ × ℕ}, i < j → ranges[i]? = some r → ranges[j]? = some s → r.2 ≤ s.1 := by
    intro i j r s hij hr hs
    have hj : j < ranges.length := by
      by_contra hc
      rw [List.getElem?_eq_none (by omega)] at hs
      cases hs
    have := List.pairwise_iff_getElem.1 h3 i j (by omega) hj hij
    rw [List.getElem?_eq_getElem (by omega), Option.some.injEq] at hr
    rw [List.getElem?_eq_getElem hj, Option.some.injEq] at hs
    rw [← hr, ← hs]
    exact this
  refine ⟨keys, ranges, h1, h4, ?_, ?_, ?_, ?_⟩
  · refine List.pairwise_iff_getElem.2 (fun i j hi hj hij heq => ?_)
    obtain ⟨r, f, r1, k1, m1, _, f1⟩ := hkey i hi
    obtain ⟨s, g, s1, k2, m2, _, f2⟩ := hkey j hj
    rw [List.getElem?_eq_getElem hi, Option.some.injEq] at k1
    rw [List.getElem?_eq_getElem hj, Option.some.injEq] at k2
    have hle := hrlt hij r1 s1
    have hs : s.1 < (v.map (·.1)).length := lt_of_lt_of_le m2.lt m2.le
    have := (run_index hsort hanti m1 s.1 hs).1 (by rw [f2, f1, ← k1, ← k2, heq])
    omega
  · refine List.pairwise_iff_getElem.2 (fun i j hi hj hij => ?_)
    obtain ⟨r, f, r1, k1, m1, _, f1⟩ := hkey i hi
    obtain ⟨s, g, s1, k2, m2, _, f2⟩ := hkey j hj
    rw [List.getElem?_eq_getElem hi, Option.some.injEq] at k1
    rw [List.getElem?_eq_getElem hj, Option.some.injEq] at k2
    have hle := hrlt hij r1 s1
    have hs : s.1 < (v.map (·.1)).length := lt_of_lt_of_le m2.lt m2.le
    have hr : r.1 < (v.map (·.1)).length := lt_of_lt_of_le m1.lt m1.le
    have hlt := m1.lt
    have := List.pairwise_iff_getElem.1 hsort r.1 s.1 hr hs (by omega)
    rw [List.getElem?_eq_getElem hr, Option.some.injEq] at f1
    rw [List.getElem?_eq_getElem hs, Option.some.injEq] at f2
    rw [k1, k2, ← f1, ← f2]
    exact this
  · intro f
    constructor
    · intro hf
      obtain ⟨i, hi, hfi⟩ := List.mem_iff_getElem.1 hf
      obtain ⟨r, g, r1, k1, m1, hm, f1⟩ := hkey i hi
      rw [List.getElem?_eq_getElem hi, Option.some.injEq, hfi] at k1
      subst k1
      rw [← hslice _ _ _ m1 f1, hlen _ _ m1]
      have := m1.lt
      omega
    · intro hf
      have hpos : 0 < (v.filter (fun t => decide (t.1 = f))).length := by omega
      obtain ⟨t, ht⟩ := List.exists_mem_of_length_pos hpos
      rw [List.mem_filter, decide_eq_true_eq] at ht
      obtain ⟨i, hi, hti⟩ := List.mem_iff_getElem.1 ht.1
      obtain ⟨b, e, hr, hbi, hie⟩ := exists_run (v.map (·.1)) i (by simpa using hi)
      have hbf : (v.map (·.1))[b]? = some f := by
        rw [← hr.same i hbi hie, List.getElem?_map, List.getElem?_eq_getElem hi, hti, ← ht.2]
        rfl
      have hmem : (b, e) ∈ ranges := by
        rw [h2]
        refine ⟨hr, ?_⟩
        rw [← hslice _ _ _ hr hbf, hlen _ _ hr] at hf
        have := hr.lt
        omega
      obtain ⟨k, hk, hke⟩ := List.mem_iff_getElem.1 hmem
      have hk' : k < keys.length := by omega
      have := h5 k (b, e) keys[k] (by rw [List.getElem?_eq_getElem hk, hke]) (List.getElem?_eq_getElem hk')
      rw [hbf] at this
      injection this with this
      rw [this]
      exact List.getElem_mem hk'
  · intro i r f hr hf
    have := (h2 r.1 r.2).1 (List.mem_of_getElem? hr)
    exact hslice _ _ _ this.1 (h5 i r f hr hf)

/-! ### Training: one function -/

theorem rows_eq {s : Space κ} (h : s.WF) (hn : 0 < s.mat.nc) (l : List (Triple κ)) (hl : l ≠ []) (g : Triple κ → κ)
    (hg : ∀ t ∈ l, g t ∈ s.id2row) :
    ∃ R : Mat ℝ, s.getRows (l.map g) = .ok ⟨s.mat.ty, R⟩ ∧ R.nr = l.length ∧ R.nc = s.mat.nc ∧
      ∀ (k : ℕ) (t : Triple κ), l[k]? = some t → R.get k = s.vecOf (g t) := by
  obtain ⟨r, e, ty, hr, hc, gr⟩ := C03_get_rows s h hn (l.map g) (by simpa using hl)
    (by intro w hw; obtain ⟨t, ht, rfl⟩ := List.mem_map.1 hw; exact hg t ht)
  refine ⟨r.val, ?_, by simpa using hr, hc, ?_⟩
  · rw [e, ← ty]
  · intro k t hk
    funext j
    rw [gr k (g t) _ (by rw [List.getElem?_map, hk]; rfl) (Space.hasWord_idxOf (hg t (List.mem_of_getElem? hk)))]
    rfl

theorem mat_rows_eq {R : Mat ℝ} (l : List (Triple κ)) (w : ℕ) (g : Triple κ → ℕ → ℝ) (h1 : R.nr = l.length) (h2 : R.nc = w)
    (h : ∀ (k : ℕ) (t : Triple κ), l[k]? = some t → R.get k = g t) :
    R = Mat.of l.length w (fun k j => match l[k]? with | some t => g t j | none => 0) := by
  refine Mat.ext' h1 h2 (fun i j hi hj => ?_)
  rw [Mat.of_get_lt (by omega) (by omega), List.getElem?_eq_getElem (show i < l.length by omega)]
  rw [h i _ (List.getElem?_eq_getElem (by omega))]

theorem lexTrainOne_ok (env : Env) (l : Learner) {arg phrase : Space κ} (ha : arg.WF) (hp : phrase.WF)
    (na : 0 < arg.mat.nc) (np : 0 < phrase.mat.nc) (S : List (Triple κ)) (hS : S ≠ [])
    (hmem : ∀ t ∈ S, t.2.1 ∈ arg.id2row ∧ t.2.2 ∈ phrase.id2row) (w : ℕ) (hw : 0 < w) (X : TMat ℝ)
    (hX : l.train env ⟨lexTy arg phrase, argRows arg S⟩ ⟨lexTy arg phrase, phraseRows phrase S⟩ = .ok X)
    (x1 : X.nr = w) (x2 : X.nc = phrase.mat.nc) :
    ∃ R : Mat ℝ, lexTrainOne env l arg phrase (S.map (·.2.1)) (S.map (·.2.2)) (phrase.mat.nc * w) =
        .ok (⟨X.ty, R⟩, lexTy arg phrase) ∧ R.nr = 1 ∧ R.nc = phrase.mat.nc * w ∧
      ∀ j i, j < phrase.mat.nc → i < w → R.get 0 (j * w + i) = X.val.get i j := by
  obtain ⟨A, ea, a1, a2, ga⟩ := rows_eq ha na S hS (·.2.1) (fun t ht => (hmem t ht).1)
  obtain ⟨P, ep, p1, p2, gp⟩ := rows_eq hp np S hS (·.2.2) (fun t ht => (hmem t ht).2)
  have hpos : 0 < S.length := List.length_pos_iff.2 hS
  have hA : A = argRows arg S := mat_rows_eq S _ _ a1 a2 ga
  have hP : P = phraseRows phrase S := mat_rows_eq S _ _ p1 p2 gp
  have x1' : X.val.nr = w := x1
  have x2' : X.val.nc = phrase.mat.nc := x2
  refine ⟨X.val.transpose.reshape 1 (phrase.mat.nc * w), ?_, rfl, rfl, ?_⟩
  · unfold lexTrainOne
    rw [ea, ok_bind, ep, ok_bind, resolve_largest ⟨arg.mat.ty, A⟩ ⟨phrase.mat.ty, P⟩
      ⟨show 0 < A.nr by omega, show 0 < A.nc by omega⟩ ⟨show 0 < P.nr by omega, show 0 < P.nc by omega⟩ (a1.trans p1.symm),
      ok_bind]
    simp only
    have ht : (if (⟨arg.mat.ty, A⟩ : TMat ℝ).nc < (⟨phrase.mat.ty, P⟩ : TMat ℝ).nc then phrase.mat.ty else arg.mat.ty) =
        lexTy arg phrase := by
      unfold lexTy
      rw [show (⟨arg.mat.ty, A⟩ : TMat ℝ).nc = arg.mat.nc from a2, show (⟨phrase.mat.ty, P⟩ : TMat ℝ).nc = phrase.mat.nc from p2]
    rw [ht, hA, hP, hX, ok_bind, TMat.transpose_ok (by omega) (by omega), ok_bind]
    unfold TMat.reshape
    rw [if_pos]
    · rfl
    · show X.val.nc * X.val.nr = 1 * _
      rw [x1', x2', one_mul]
  · intro j i hj hi
    unfold Mat.reshape
    have hlt : j * w + i < phrase.mat.nc * w := by
      calc j * w + i < j * w + w := by omega
        _ = (j + 1) * w := by ring
        _ ≤ phrase.mat.nc * w := Nat.mul_le_mul_right _ hj
    rw [Mat.of_get_lt Nat.one_pos hlt, Mat.transpose_get]
    simp only [zero_mul, zero_add, Mat.transpose_nc, x1']
    rw [Nat.mul_comm j w, Nat.mul_add_div hw, Nat.div_eq_of_lt hi, Nat.mul_add_mod, Nat.mod_eq_of_lt hi, add_zero]

theorem lexTrainLoop_ok (env : Env) (l : Learner) {arg phrase : Space κ} (ha : arg.WF) (hp : phrase.WF)
    (na : 0 < arg.mat.nc) (np : 0 < phrase.mat.nc) (v : List (Triple κ)) (w : ℕ) (hw : 0 < w) (X : κ → TMat ℝ)
    (hv : ∀ t ∈ v, t.2.1 ∈ arg.id2row ∧ t.2.2 ∈ phrase.id2row) :
    ∀ (keys : List κ) (ranges : List (ℕ × ℕ)), keys.length = ranges.length →
      (∀ (i : ℕ) (r : ℕ × ℕ) (f : κ), ranges[i]? = some r → keys[i]? = some f →
        (v.take r.2).drop r.1 = v.filter (fun t => decide (t.1 = f))) →
      (∀ f ∈ keys, v.filter (fun t => decide (t.1 = f)) ≠ [] ∧
        l.train env ⟨lexTy arg phrase, argRows arg (v.filter (fun t => decide (t.1 = f)))⟩
          ⟨lexTy arg phrase, phraseRows phrase (v.filter (fun t => decide (t.1 = f)))⟩ = .ok (X f) ∧
        (X f).ty = lexTy arg phrase ∧ (X f).nr = w ∧ (X f).nc = phrase.mat.nc) →
      ∃ rs : List (TMat ℝ × MTy), lexTrainLoop env l arg phrase (v.map (·.2.1)) (v.map (·.2.2)) (phrase.mat.nc * w) ranges =
          .ok rs ∧ rs.length = keys.length ∧
        (∀ r ∈ rs, r.2 = lexTy arg phrase ∧ r.1.ty = lexTy arg phrase ∧ r.1.nc = phrase.mat.nc * w ∧ r.1.nr = 1) ∧
        ∀ (k : ℕ) (f : κ) (r : TMat ℝ × MTy), keys[k]? = some f → rs[k]? = some r → ∀ j i, j < phrase.mat.nc → i < w →
          r.1.val.get 0 (j * w + i) = (X f).val.get i j := by
  intro keys
  induction keys with
  | nil =>
    intro ranges hlen _ _
    obtain rfl := List.length_eq_zero_iff.1 hlen.symm
    exact ⟨[], rfl, rfl, by simp, by simp⟩
  | cons f keys ih =>
    intro ranges hlen hr hX
    cases ranges with
    | nil => simp at hlen
    | cons r ranges =>
      obtain ⟨rs, i1, i2, i3, i4⟩ := ih ranges (by simpa using hlen)
        (fun i r' f' h1 h2 => hr (i + 1) r' f' (by simpa using h1) (by simpa using h2)) (fun g hg => hX g (by simp [hg]))
      obtain ⟨hne, hT, hty, hnr, hnc⟩ := hX f (by simp)
      obtain ⟨R, e, r1, r2, gR⟩ := lexTrainOne_ok env l ha hp na np _ hne
        (fun t ht => hv t (List.mem_filter.1 ht).1) w hw (X f) hT hnr hnc
      have hs := hr 0 r f rfl rfl
      refine ⟨(⟨(X f).ty, R⟩, lexTy arg phrase) :: rs, ?_, by simp [i2], ?_, ?_⟩
      · unfold lexTrainLoop
        simp only [slice, slice_map]
        rw [hs, e, ok_bind, i1]
        rfl
      · intro x hx
        rcases List.mem_cons.1 hx with rfl | hx
        · exact ⟨rfl, hty, r2, r1⟩
        · exact i3 x hx
      · intro k g x hk hx
        cases k with
        | zero =>
          simp only [List.getElem?_cons_zero, Option.some.injEq] at hk hx
          subst hk hx
          exact gR
        | succ k =>
          simp only [List.getElem?_cons_succ] at hk hx
          exact i4 k g x hk hx

end
end Dissect
