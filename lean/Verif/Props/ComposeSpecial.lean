import Verif.Props.ComposeMore
import Verif.Props.Invariance
import Mathlib.Tactic.IntervalCases

/-! # C145: special cases of the composition models; C146: rescaling the words does not change the cosines of phrases -/

namespace Dissect
open Finset
noncomputable section
variable {κ : Type} [DecidableEq κ]

/-! ## C145 -/

/-- `a` on the diagonal, 0 elsewhere, of size `n`. -/
def IsScalarMatrix (A : Mat ℝ) (n : ℕ) (a : ℝ) : Prop :=
  A.nr = n ∧ A.nc = n ∧ ∀ i j, i < n → j < n → A.get i j = if i = j then a else 0

theorem dot_scalar {A : Mat ℝ} {n : ℕ} {a : ℝ} (h : IsScalarMatrix A n a) {j : ℕ} (hj : j < n) (u : ℕ → ℝ) :
    ∑ q ∈ range n, A.get j q * u q = a * u j := by
  rw [Finset.sum_eq_single j]
  · rw [h.2.2 j j hj hj, if_pos rfl]
  · intro q hq hne
    rw [h.2.2 j q hj (Finset.mem_range.1 hq), if_neg (Ne.symm hne), zero_mul]
  · intro hn
    exact absurd (Finset.mem_range.2 hj) hn

/-- Vectors of phrases, from the vectors of the rows of the composed space. -/
theorem vecOf_row {s1 s2 r : Space κ} {data : List (Triple κ)} (hl : r.id2row = (knownTriples s1 s2 data).map (·.2.2))
    (hn : ((knownTriples s1 s2 data).map (·.2.2)).Nodup) {ph : κ} (hp : ph ∈ r.id2row) :
    ∃ k x y, (knownTriples s1 s2 data)[k]? = some (x, y, ph) ∧ r.id2row.idxOf ph = k ∧ x ∈ s1.id2row ∧ y ∈ s2.id2row := by
  rw [hl] at hp ⊢
  obtain ⟨t, ht, rfl⟩ := List.mem_map.1 hp
  obtain ⟨_, m1, m2⟩ := mem_known.1 ht
  exact ⟨_, t.1, t.2.1, idxOf_phrase hn ht, rfl, m1, m2⟩

/-- **C145** `FullAdditive(A = alpha*I, B = beta*I)` composes the same phrases to the same vectors as
`WeightedAdditive(alpha, beta)`. -/
theorem C145_full_additive_of_scalars (a b : ℝ) (A B : TMat ℝ) (data : List (Triple κ)) (args : ArgSpace κ) (s1 s2 : Space κ)
    (hx : args.extract = .ok (s1, s2)) (h1 : s1.WF) (h2 : s2.WF) (hw : s1.mat.nc = s2.mat.nc) (hpos : 0 < s1.mat.nc)
    (hA : IsScalarMatrix A.val s1.mat.nc a) (hB : IsScalarMatrix B.val s1.mat.nc b)
    (hv : knownTriples s1 s2 data ≠ []) (hn : ((knownTriples s1 s2 data).map (·.2.2)).Nodup) :
    ∃ (c c' : Composer κ) (r r' : Space κ), newFullAdditive A B = .ok c ∧ newWeighted (.num a) (.num b) = .ok c' ∧
      (c.compose data args).2 = .ok r ∧ (c'.compose data args).2 = .ok r' ∧ r.id2row = r'.id2row ∧
      ∀ ph ∈ r.id2row, ∀ j < s1.mat.nc, r.vecOf ph j = r'.vecOf ph j := by
  obtain ⟨c, r, e1, e2, e3, _, _, e6⟩ := C43_given_matrices A B data args s1 s2 hx h1 h2 hpos (hw ▸ hpos) hA.2.1
    (by rw [← hw]; exact hB.2.1) (by show A.val.nr = B.val.nr; rw [hA.1, hB.1]) (by show 0 < A.val.nr; rw [hA.1]; exact hpos) hv hn
  obtain ⟨c', r', f1, f2, f3, f4⟩ := C40_weighted a b data args s1 s2 hx h1 h2 hw hpos hv hn
  refine ⟨c, c', r, r', e1, f1, e2, f2, by rw [e3, f3], fun ph hp j hj => ?_⟩
  obtain ⟨k, x, y, hk, hi, m1, m2⟩ := vecOf_row e3 hn hp
  have hi' : r'.id2row.idxOf ph = k := by rw [f3, ← e3]; exact hi
  have hjA : j < A.nr := by show j < A.val.nr; rw [hA.1]; exact hj
  have hAc : A.nc = s1.mat.nc := hA.2.1
  have hBc : B.nc = s1.mat.nc := hB.2.1
  show r.mat.val.get _ j = r'.mat.val.get _ j
  rw [hi, hi', e6 k x y ph _ _ hk (Space.hasWord_idxOf m1) (Space.hasWord_idxOf m2) j hjA,
    f4 k x y ph _ _ hk (Space.hasWord_idxOf m1) (Space.hasWord_idxOf m2) j hj, hAc, hBc,
    dot_scalar hA hj, dot_scalar hB hj]

/-- The vector of the phrase of a triple composed by one of the models that need equal lengths. -/
theorem simple_vec {c : Composer κ} {data : List (Triple κ)} {args : ArgSpace κ} {s1 s2 r : Space κ}
    (hx : args.extract = .ok (s1, s2)) (h1 : s1.WF) (h2 : s2.WF) (hw : s1.mat.nc = s2.mat.nc) (hpos : 0 < s1.mat.nc)
    (hm : (∃ a b, c.model = .weighted a b) ∨ (∃ l, c.model = .dilation l) ∨ c.model = .multiplicative)
    (hcols : c.ColumnsFit s1.mat.nc) (hr : (c.compose data args).2 = .ok r) {t : Triple κ} (ht : t ∈ data)
    (m1 : t.1 ∈ s1.id2row) (m2 : t.2.1 ∈ s2.id2row) :
    t.2.2 ∈ r.id2row ∧ ∀ j < s1.mat.nc, r.vecOf t.2.2 j = c.model.vec s1.mat.nc s2.mat.nc (s1.vecOf t.1) (s2.vecOf t.2.1) j := by
  have hf : c.model.Fits s1.mat.nc s2.mat.nc s1.mat.nc := by
    rcases hm with ⟨a, b, hm⟩ | ⟨l, hm⟩ | hm <;> rw [hm] <;> exact ⟨hpos, hw ▸ hpos, hpos, hw, rfl⟩
  obtain ⟨_, n, q⟩ := compose_success hx h1 h2 hf hcols hr
  have tk := mem_known.2 ⟨ht, m1, m2⟩
  exact ⟨by rw [q.labels]; exact List.mem_map.2 ⟨t, tk, rfl⟩, fun j hj => composed_vec n q tk m1 m2 hj⟩

/-- **C145** with weights 1 and 0 `WeightedAdditive` gives every phrase the vector of its first word, with 0 and 1 that of
its second word. -/
theorem C145_weights_one_zero (first : Bool) (cols : Option (List κ)) (data : List (Triple κ)) (args : ArgSpace κ) (s1 s2 r : Space κ)
    (hx : args.extract = .ok (s1, s2)) (h1 : s1.WF) (h2 : s2.WF) (hw : s1.mat.nc = s2.mat.nc) (hpos : 0 < s1.mat.nc)
    (hcols : ∀ l, cols = some l → l.Nodup ∧ (l ≠ [] → l.length = s1.mat.nc))
    (hr : ((⟨if first then .weighted 1 0 else .weighted 0 1, cols⟩ : Composer κ).compose data args).2 = .ok r) (t : Triple κ)
    (ht : t ∈ data) (m1 : t.1 ∈ s1.id2row) (m2 : t.2.1 ∈ s2.id2row) :
    t.2.2 ∈ r.id2row ∧ ∀ j < s1.mat.nc, r.vecOf t.2.2 j = if first then s1.vecOf t.1 j else s2.vecOf t.2.1 j := by
  cases first with
  | true =>
    obtain ⟨p, q⟩ := simple_vec (c := ⟨.weighted 1 0, cols⟩) hx h1 h2 hw hpos (Or.inl ⟨1, 0, rfl⟩) hcols hr ht m1 m2
    refine ⟨p, fun j hj => ?_⟩
    rw [q j hj]
    simp [CModel.vec, weightedVec]
  | false =>
    obtain ⟨p, q⟩ := simple_vec (c := ⟨.weighted 0 1, cols⟩) hx h1 h2 hw hpos (Or.inl ⟨0, 1, rfl⟩) hcols hr ht m1 m2
    refine ⟨p, fun j hj => ?_⟩
    rw [q j hj]
    simp [CModel.vec, weightedVec]

/-- **C145** what `Dilation` does geometrically. Let `u`, `v` be the vectors of the two words and `p` that of the phrase:
`p` is `|u|²` times the vector obtained from `v` by stretching its part along `u` by `lambda`: in the direction of `u`
`p` has `lambda |u|²` times what `v` has, and in every direction orthogonal to `u` it has `|u|²` times what `v` has. For
`lambda = 1` the phrase vector is `|u|² v`. -/
theorem C145_dilation_geometry (l : ℝ) (cols : Option (List κ)) (data : List (Triple κ)) (args : ArgSpace κ) (s1 s2 r : Space κ)
    (hx : args.extract = .ok (s1, s2)) (h1 : s1.WF) (h2 : s2.WF) (hw : s1.mat.nc = s2.mat.nc) (hpos : 0 < s1.mat.nc)
    (hcols : ∀ l, cols = some l → l.Nodup ∧ (l ≠ [] → l.length = s1.mat.nc))
    (hr : ((⟨.dilation l, cols⟩ : Composer κ).compose data args).2 = .ok r) (t : Triple κ)
    (ht : t ∈ data) (m1 : t.1 ∈ s1.id2row) (m2 : t.2.1 ∈ s2.id2row) :
    let n := s1.mat.nc
    let u := s1.vecOf t.1
    let v := s2.vecOf t.2.1
    let p := r.vecOf t.2.2
    dot n u p = l * dot n u u * dot n u v ∧
    (∀ z : ℕ → ℝ, dot n u z = 0 → dot n z p = dot n u u * dot n z v) ∧
    (l = 1 → ∀ j < n, p j = dot n u u * v j) := by
  obtain ⟨-, q⟩ := simple_vec (c := ⟨.dilation l, cols⟩) hx h1 h2 hw hpos (Or.inr (Or.inl ⟨l, rfl⟩)) hcols hr ht m1 m2
  intro n u v p
  have hp : ∀ j < n, p j = dot n u u * v j + (l - 1) * dot n u v * u j := q
  have hd : ∀ z : ℕ → ℝ, dot n z p = dot n u u * dot n z v + (l - 1) * dot n u v * dot n z u := by
    intro z
    unfold dot
    rw [Finset.mul_sum, Finset.mul_sum, ← Finset.sum_add_distrib]
    refine Finset.sum_congr rfl fun j hj => ?_
    rw [hp j (Finset.mem_range.1 hj)]
    unfold dot
    ring
  have hcomm : ∀ z : ℕ → ℝ, dot n z u = dot n u z := fun z => Finset.sum_congr rfl fun j _ => mul_comm _ _
  refine ⟨by rw [hd u]; ring, fun z hz => by rw [hd z, hcomm z, hz]; ring, fun h1 j hj => by rw [hp j hj, h1]; ring⟩

/-- **C145** a word whose vector is all ones is neutral in `Multiplicative` composition, and a word whose vector is zero
makes the phrase vector zero. -/
theorem C145_multiplicative_neutral (cols : Option (List κ)) (data : List (Triple κ)) (args : ArgSpace κ) (s1 s2 r : Space κ)
    (hx : args.extract = .ok (s1, s2)) (h1 : s1.WF) (h2 : s2.WF) (hw : s1.mat.nc = s2.mat.nc) (hpos : 0 < s1.mat.nc)
    (hcols : ∀ l, cols = some l → l.Nodup ∧ (l ≠ [] → l.length = s1.mat.nc))
    (hr : ((⟨.multiplicative, cols⟩ : Composer κ).compose data args).2 = .ok r) (t : Triple κ)
    (ht : t ∈ data) (m1 : t.1 ∈ s1.id2row) (m2 : t.2.1 ∈ s2.id2row) :
    ((∀ j < s1.mat.nc, s1.vecOf t.1 j = 1) → ∀ j < s1.mat.nc, r.vecOf t.2.2 j = s2.vecOf t.2.1 j) ∧
    ((∀ j < s1.mat.nc, s2.vecOf t.2.1 j = 1) → ∀ j < s1.mat.nc, r.vecOf t.2.2 j = s1.vecOf t.1 j) ∧
    ((∀ j < s1.mat.nc, s1.vecOf t.1 j = 0) ∨ (∀ j < s1.mat.nc, s2.vecOf t.2.1 j = 0) →
      ∀ j < s1.mat.nc, r.vecOf t.2.2 j = 0) := by
  obtain ⟨-, q⟩ := simple_vec (c := ⟨.multiplicative, cols⟩) hx h1 h2 hw hpos (Or.inr (Or.inr rfl)) hcols hr ht m1 m2
  have hp : ∀ j < s1.mat.nc, r.vecOf t.2.2 j = s1.vecOf t.1 j * s2.vecOf t.2.1 j := q
  refine ⟨fun h j hj => by rw [hp j hj, h j hj, one_mul], fun h j hj => by rw [hp j hj, h j hj, mul_one], fun h j hj => ?_⟩
  rcases h with h | h
  · rw [hp j hj, h j hj, zero_mul]
  · rw [hp j hj, h j hj, mul_zero]

/-- **C145** a lexical function whose matrix is `a` times the identity maps every argument to `a` times itself; the
identity matrix therefore leaves the argument as it is. -/
theorem C145_lexical_scalar (m : LexFun κ) (fs arg : Space κ) (data : List (Triple κ)) (hm : m.functions = some fs)
    (hf : fs.WF) (ha : arg.WF) (hn : 0 < arg.mat.nc) (hi : m.intercept = false)
    (hs : fs.elemShape = [arg.mat.nc, arg.mat.nc]) (hcn : m.columns.Nodup)
    (hcl : m.columns ≠ [] → m.columns.length = arg.mat.nc)
    (hv : knownTriples fs arg data ≠ []) (hnd : ((knownTriples fs arg data).map (·.2.2)).Nodup) :
    ∃ r, m.compose data arg = .ok r ∧ ∀ t ∈ data, t.1 ∈ fs.id2row → t.2.1 ∈ arg.id2row → ∀ a : ℝ,
      (∀ i j, i < arg.mat.nc → j < arg.mat.nc → fs.vecOf t.1 (i * arg.mat.nc + j) = if i = j then a else 0) →
      t.2.2 ∈ r.id2row ∧ ∀ j < arg.mat.nc, r.vecOf t.2.2 j = a * arg.vecOf t.2.1 j := by
  obtain ⟨r, e1, _, e3, _, _, e6⟩ := C45_compose m fs arg data [arg.mat.nc] hm hf ha (by simp) (by simpa using hn) hn
    (by rw [hs, hi]; rfl) hcn (by simpa using hcl) hv hnd
  refine ⟨r, e1, fun t ht m1 m2 a hI => ?_⟩
  have tk := mem_known.2 ⟨ht, m1, m2⟩
  refine ⟨by rw [e3]; exact List.mem_map.2 ⟨t, tk, rfl⟩, fun j hj => ?_⟩
  unfold Space.vecOf
  rw [e3, e6 _ t.1 t.2.1 t.2.2 (idxOf_phrase hnd tk) j (by simpa using hj), hi]
  simp only [lexVec, Bool.false_eq_true, if_false, add_zero]
  rw [Finset.sum_eq_single j]
  · rw [hI j j hj hj, if_pos rfl]
    rfl
  · intro q hq hne
    rw [hI j q hj (Finset.mem_range.1 hq), if_neg (Ne.symm hne), zero_mul]
  · intro h
    exact absurd (Finset.mem_range.2 hj) h

/-- Non-vacuity of C145: the phrase "red_car", with `red = (1, 2)` and `car = (3, 4)`. -/
example : ∃ s1 s2 : Space String, ∃ r w d : Space String,
    ((⟨.weighted 1 0, none⟩ : Composer String).compose exData (.tuple [s1, s2])).2 = .ok w ∧
    ((⟨.dilation 3, none⟩ : Composer String).compose exData (.tuple [s1, s2])).2 = .ok d ∧
    ((⟨.multiplicative, none⟩ : Composer String).compose exData (.tuple [s1, s2])).2 = .ok r ∧
    (∀ j < 2, w.vecOf "red_car" j = s1.vecOf "red" j) ∧
    dot 2 (s1.vecOf "red") (d.vecOf "red_car") = 3 * dot 2 (s1.vecOf "red") (s1.vecOf "red") * dot 2 (s1.vecOf "red") (s2.vecOf "car") ∧
    ∃ (c c' : Composer String) (f f' : Space String),
      newFullAdditive ⟨.sparse, Mat.of 2 2 (fun i j => if i = j then 5 else 0)⟩ ⟨.dense, Mat.of 2 2 (fun i j => if i = j then 7 else 0)⟩ = .ok c ∧
      newWeighted (.num 5) (.num 7) = .ok c' ∧
      (c.compose exData (.tuple [s1, s2])).2 = .ok f ∧ (c'.compose exData (.tuple [s1, s2])).2 = .ok f' ∧ f.id2row = f'.id2row := by
  obtain ⟨s1, _, w1, n1, r1, c1⟩ := exArg_ok .dense ["f1", "f2"] (by decide) rfl
  obtain ⟨s2, _, w2, n2, r2, c2⟩ := exArg_ok .sparse ["f1", "f2"] (by decide) rfl
  have hx : (ArgSpace.tuple [s1, s2]).extract = .ok (s1, s2) := (extract_iff _ _ _).2 (Or.inr ⟨rfl, c1.trans c2.symm⟩)
  have hw : s1.mat.nc = s2.mat.nc := n1.trans n2.symm
  have hpos : 0 < s1.mat.nc := by omega
  have hv : knownTriples s1 s2 exData ≠ [] := by rw [exData_known r1 r2]; simp
  have hn : ((knownTriples s1 s2 exData).map (·.2.2)).Nodup := by rw [exData_known r1 r2]; simp
  have hfit : ∀ m : CModel, ((∃ a b, m = .weighted a b) ∨ (∃ l, m = .dilation l) ∨ m = .multiplicative) →
      m.Fits s1.mat.nc s2.mat.nc s1.mat.nc := by
    rintro m (⟨a, b, rfl⟩ | ⟨l, rfl⟩ | rfl) <;> exact ⟨hpos, hw ▸ hpos, hpos, hw, rfl⟩
  obtain ⟨w, hw1, _⟩ := C38_compose (⟨.weighted 1 0, none⟩ : Composer String) exData _ s1 s2 _ hx w1 w2 (hfit _ (Or.inl ⟨1, 0, rfl⟩))
    (by intro _ h; cases h) hv hn
  obtain ⟨d, hd1, _⟩ := C38_compose (⟨.dilation 3, none⟩ : Composer String) exData _ s1 s2 _ hx w1 w2 (hfit _ (Or.inr (Or.inl ⟨3, rfl⟩)))
    (by intro _ h; cases h) hv hn
  obtain ⟨r, hr1, _⟩ := C38_compose (⟨.multiplicative, none⟩ : Composer String) exData _ s1 s2 _ hx w1 w2 (hfit _ (Or.inr (Or.inr rfl)))
    (by intro _ h; cases h) hv hn
  have t1 : (("red", "car", "red_car") : Triple String) ∈ exData := by simp [exData]
  have m1 : "red" ∈ s1.id2row := by rw [r1]; simp
  have m2 : "car" ∈ s2.id2row := by rw [r2]; simp
  refine ⟨s1, s2, r, w, d, hw1, hd1, hr1, ?_, ?_, ?_⟩
  · have := (C145_weights_one_zero true none exData _ s1 s2 w hx w1 w2 hw hpos (by intro _ h; cases h) hw1 _ t1 m1 m2).2
    rw [n1] at this
    simpa using this
  · have := (C145_dilation_geometry 3 none exData _ s1 s2 d hx w1 w2 hw hpos (by intro _ h; cases h) hd1 _ t1 m1 m2).1
    rw [n1] at this
    exact this
  · obtain ⟨c, c', f, f', e1, e2, e3, e4, e5, _⟩ := C145_full_additive_of_scalars 5 7
      ⟨.sparse, Mat.of 2 2 (fun i j => if i = j then 5 else 0)⟩ ⟨.dense, Mat.of 2 2 (fun i j => if i = j then 7 else 0)⟩
      exData _ s1 s2 hx w1 w2 hw hpos
      ⟨n1.symm, n1.symm, fun i j hi hj => Mat.of_get_lt (nr := 2) (nc := 2) (by omega) (by omega)⟩
      ⟨n1.symm, n1.symm, fun i j hi hj => Mat.of_get_lt (nr := 2) (nc := 2) (by omega) (by omega)⟩ hv hn
    exact ⟨c, c', f, f', e1, e2, e3, e4, e5⟩

/-- Non-vacuity of C145 (lexical function): the word 7 has the matrix `2 * I`, and the argument 9 is doubled. -/
example : ∃ (fs arg r : Space ℕ), (LexFun.ofSpace fs false).compose [(7, 8, 1), (7, 9, 2)] arg = .ok r ∧
    ∀ j < 2, r.vecOf 2 j = 2 * arg.vecOf 9 j := by
  obtain ⟨fs, f1, f2, f3, f4, f5⟩ := exists_space (Mat.of 1 4 (fun _ j => if j = 0 ∨ j = 3 then (2 : ℝ) else 0)) [7] (by simp) rfl
    (some [2, 2]) (by rintro s ⟨⟩; rfl)
  obtain ⟨arg, a1, a2, a3, a4, a5⟩ := exists_space (Mat.of 2 2 (fun i j => (i : ℝ) - j)) [8, 9] (by simp) rfl none (by simp)
  have hnc : arg.mat.nc = 2 := by rw [a2]; rfl
  have hk : knownTriples fs arg [(7, 8, 1), (7, 9, 2)] = [(7, 8, 1), (7, 9, 2)] := by
    unfold knownTriples
    rw [f3, a3]
    rfl
  obtain ⟨r, e1, e2⟩ := C145_lexical_scalar (LexFun.ofSpace fs false) fs arg [(7, 8, 1), (7, 9, 2)] rfl f1 a1 (by omega) rfl
    (by rw [f5, hnc]; rfl) (by simp [LexFun.ofSpace]) (by simp [LexFun.ofSpace]) (by rw [hk]; simp) (by rw [hk]; decide)
  refine ⟨fs, arg, r, e1, fun j hj => ?_⟩
  refine (e2 (7, 9, 2) (by simp) (by rw [f3]; simp) (by rw [a3]; simp) 2 (fun i j hi hj => ?_)).2 j (by omega)
  rw [hnc] at hi hj ⊢
  unfold Space.vecOf
  rw [f2, f3]
  have : i * 2 + j < 4 := by omega
  show (Mat.of 1 4 _).get _ _ = _
  rw [Mat.of_get_lt (by simp) this]
  interval_cases i <;> interval_cases j <;> simp

/-! ## C146 -/

theorem row_of_mem {s : Space κ} (h : s.WF) {w : κ} (hw : w ∈ s.id2row) : s.id2row.idxOf w < s.mat.nr := by
  rw [h.nrows]
  exact List.idxOf_lt_length_iff.2 hw

/-- Composition of rescaled vectors is a rescaled composition. -/
theorem compose_rowScaled {c : Composer κ} {data : List (Triple κ)} {s1 s2 s1' s2' r : Space κ} (h1 : s1.WF) (h2 : s2.WF)
    (h1' : s1'.WF) (h2' : s2'.WF) (hw : s1.mat.nc = s2.mat.nc) (hpos : 0 < s1.mat.nc)
    (r1 : RowScaled s1 s1') (r2 : RowScaled s2 s2') (k1 : s1'.id2col = s1.id2col) (k2 : s2'.id2col = s2.id2col)
    (hm : (∃ a b, c.model = .weighted a b) ∨ (∃ l, c.model = .dilation l) ∨ c.model = .multiplicative)
    (hcols : c.ColumnsFit s1.mat.nc)
    (hvec : ∀ x ∈ s1.id2row, ∀ y ∈ s2.id2row, ∃ a : ℝ, 0 < a ∧ ∀ j < s1.mat.nc,
      c.model.vec s1.mat.nc s2.mat.nc (s1'.vecOf x) (s2'.vecOf y) j =
        a * c.model.vec s1.mat.nc s2.mat.nc (s1.vecOf x) (s2.vecOf y) j)
    (hr : (c.compose data (.tuple [s1, s2])).2 = .ok r) :
    r.WF ∧ r.mat.nc = s1.mat.nc ∧ ∃ r', (c.compose data (.tuple [s1', s2'])).2 = .ok r' ∧ r'.WF ∧ RowScaled r r' := by
  have hcol : s1.id2col = s2.id2col := by
    by_contra hne
    rw [C38_bad_spaces c data [s1, s2] (Or.inr ⟨s1, s2, rfl, hne⟩)] at hr
    cases hr
  have hx : (ArgSpace.tuple [s1, s2]).extract = .ok (s1, s2) := (extract_iff _ _ _).2 (Or.inr ⟨rfl, hcol⟩)
  have hx' : (ArgSpace.tuple [s1', s2']).extract = .ok (s1', s2') :=
    (extract_iff _ _ _).2 (Or.inr ⟨rfl, by rw [k1, k2, hcol]⟩)
  have hf : c.model.Fits s1.mat.nc s2.mat.nc s1.mat.nc := by
    rcases hm with ⟨a, b, hm⟩ | ⟨l, hm⟩ | hm <;> rw [hm] <;> exact ⟨hpos, hw ▸ hpos, hpos, hw, rfl⟩
  have hf' : c.model.Fits s1'.mat.nc s2'.mat.nc s1.mat.nc := by rw [r1.width, r2.width]; exact hf
  obtain ⟨hv, hn, q⟩ := compose_success hx h1 h2 hf hcols hr
  have hk : knownTriples s1' s2' data = knownTriples s1 s2 data := by
    unfold knownTriples
    rw [r1.rows, r2.rows]
  obtain ⟨r', e1, q'⟩ := C38_compose c data _ s1' s2' s1.mat.nc hx' h1' h2' hf' hcols (by rw [hk]; exact hv)
    (by rw [hk]; exact hn)
  rw [hk] at q'
  refine ⟨q.wf, q.width, r', e1, q'.wf, ⟨by rw [q.labels, q'.labels], by rw [q.width, q'.width], fun i hi => ?_⟩⟩
  have hi' : i < (knownTriples s1 s2 data).length := by
    rw [q.wf.nrows, q.labels, List.length_map] at hi
    exact hi
  obtain ⟨⟨x, y, ph⟩, ht⟩ : ∃ t, (knownTriples s1 s2 data)[i]? = some t := ⟨_, List.getElem?_eq_getElem hi'⟩
  obtain ⟨_, m1, m2⟩ := mem_known.1 (List.mem_of_getElem? ht)
  have m1' : x ∈ s1'.id2row := by rw [r1.rows]; exact m1
  have m2' : y ∈ s2'.id2row := by rw [r2.rows]; exact m2
  obtain ⟨a, ha, hva⟩ := hvec x m1 y m2
  refine ⟨a, ha, fun j hj => ?_⟩
  rw [q.width] at hj
  rw [q'.vectors i x y ph _ _ ht (Space.hasWord_idxOf m1') (Space.hasWord_idxOf m2') j hj,
    q.vectors i x y ph _ _ ht (Space.hasWord_idxOf m1) (Space.hasWord_idxOf m2) j hj, r1.width, r2.width]
  exact hva j hj

/-- The neighbours by cosine of a space whose rows are rescaled. -/
theorem rowScaled_neighbours {s s' : Space κ} (hs : RowScaled s s') (h1 : s.WF) (h2 : s'.WF) (hc : 0 < s.mat.nc) (w : κ) (n : ℤ) :
    s'.getNeighbours w n .cos none = s.getNeighbours w n .cos none := by
  have hc' : 0 < s'.mat.nc := by rw [hs.width]; exact hc
  by_cases hw : w ∈ s.id2row
  · have hlen : 0 < s.id2row.length := List.length_pos_of_mem hw
    obtain ⟨res, sc, e1, e2, e3⟩ := C09_top_n s s none .cos w n rfl h1 h1 hc rfl hw hlen
    obtain ⟨res', sc', f1, f2, f3⟩ := C09_top_n s' s' none .cos w n rfl h2 h2 hc' rfl (by rw [hs.rows]; exact hw)
      (by rw [hs.rows]; exact hlen)
    rw [hs.rows] at f2 f3
    rw [e1, f1, e3.unique (fun x hx => ?_) f3]
    have : s'.getSim w x .cos none = s.getSim w x .cos none := rowScaled_cos hs hs h1 h2 h1 h2 hc rfl w x
    rw [e2 x hx, f2 x hx] at this
    exact (ok_inj this).symm
  · rw [C09_unknown_word s none .cos w n h1 hw, C09_unknown_word s' none .cos w n h2 (by rw [hs.rows]; exact hw)]

theorem dot_congr {n : ℕ} {x x' y y' : ℕ → ℝ} {a b : ℝ} (hx : ∀ j < n, x' j = a * x j) (hy : ∀ j < n, y' j = b * y j) :
    dot n x' y' = a * b * dot n x y := by
  unfold dot
  rw [Finset.mul_sum]
  refine Finset.sum_congr rfl fun j hj => ?_
  rw [hx j (Finset.mem_range.1 hj), hy j (Finset.mem_range.1 hj)]
  ring

/-- **C146** for `Multiplicative` and `Dilation`: normalising the word spaces (each in its own way, by rows or as a whole)
changes no cosine similarity between composed phrases and no list of nearest phrases by cosine. -/
theorem C146_normalised_words (env : Env) (c : Composer κ) (data : List (Triple κ)) (s1 s2 s1' s2' r : Space κ) (st1 st2 : ScalingT)
    (h1 : s1.WF) (h2 : s2.WF) (hw : s1.mat.nc = s2.mat.nc) (hpos : 0 < s1.mat.nc) (hr1 : 0 < s1.mat.nr) (hr2 : 0 < s2.mat.nr)
    (hst1 : Normalises st1 s1.mat.val) (hst2 : Normalises st2 s2.mat.val)
    (a1 : s1.apply env (.scaling st1) = .ok s1') (a2 : s2.apply env (.scaling st2) = .ok s2')
    (hm : (∃ l, c.model = .dilation l) ∨ c.model = .multiplicative) (hcols : c.ColumnsFit s1.mat.nc)
    (hr : (c.compose data (.tuple [s1, s2])).2 = .ok r) :
    ∃ r', (c.compose data (.tuple [s1', s2'])).2 = .ok r' ∧ r'.id2row = r.id2row ∧
      (∀ p1 p2, r'.getSim p1 p2 .cos none = r.getSim p1 p2 .cos none) ∧
      ∀ p n, r'.getNeighbours p n .cos none = r.getNeighbours p n .cos none := by
  obtain ⟨q1, w1⟩ := normalises_rowScaled hr1 hpos hst1 a1
  obtain ⟨q2, w2⟩ := normalises_rowScaled hr2 (hw ▸ hpos) hst2 a2
  obtain ⟨k1, _⟩ := C05_scaling_keeps_columns env s1 s1' st1 hr1 a1
  obtain ⟨k2, _⟩ := C05_scaling_keeps_columns env s2 s2' st2 hr2 a2
  have hvec : ∀ x ∈ s1.id2row, ∀ y ∈ s2.id2row, ∃ a : ℝ, 0 < a ∧ ∀ j < s1.mat.nc,
      c.model.vec s1.mat.nc s2.mat.nc (s1'.vecOf x) (s2'.vecOf y) j =
        a * c.model.vec s1.mat.nc s2.mat.nc (s1.vecOf x) (s2.vecOf y) j := by
    intro x hx y hy
    obtain ⟨a, ha, ea⟩ := q1.scaled _ (row_of_mem h1 hx)
    obtain ⟨b, hb, eb⟩ := q2.scaled _ (row_of_mem h2 hy)
    have ea' : ∀ j < s1.mat.nc, s1'.vecOf x j = a * s1.vecOf x j := by
      intro j hj
      unfold Space.vecOf
      rw [q1.rows]
      exact ea j hj
    have eb' : ∀ j < s1.mat.nc, s2'.vecOf y j = b * s2.vecOf y j := by
      intro j hj
      unfold Space.vecOf
      rw [q2.rows]
      exact eb j (hw ▸ hj)
    rcases hm with ⟨l, hm⟩ | hm
    · refine ⟨a * a * b, by positivity, fun j hj => ?_⟩
      rw [hm]
      simp only [CModel.vec, dilationVec]
      rw [dot_congr ea' ea', dot_congr ea' eb', ea' j hj, eb' j hj]
      ring
    · refine ⟨a * b, by positivity, fun j hj => ?_⟩
      rw [hm]
      simp only [CModel.vec, productVec]
      rw [ea' j hj, eb' j hj]
      ring
  obtain ⟨wr, nr, r', e1, e2, e3⟩ := compose_rowScaled h1 h2 w1 w2 hw hpos q1 q2 k1 k2 (Or.inr hm) hcols hvec hr
  exact ⟨r', e1, e3.rows, fun p1 p2 => rowScaled_cos e3 e3 wr e2 wr e2 (by omega) rfl p1 p2,
    fun p n => rowScaled_neighbours e3 wr e2 (by omega) p n⟩

/-- `s'` is `s` with every number multiplied by `t`. -/
structure MultipleOf (t : ℝ) (s s' : Space κ) : Prop where
  rows : s'.id2row = s.id2row
  cols : s'.id2col = s.id2col
  width : s'.mat.nc = s.mat.nc
  values : ∀ i j, s'.mat.val.get i j = t * s.mat.val.get i j

/-- **C146** for `WeightedAdditive`, whose value depends on the relative lengths of the two words, what may change is the
common unit: multiplying all numbers of both spaces by one positive number changes no cosine of phrases. -/
theorem C146_common_unit (t : ℝ) (ht : 0 < t) (a b : ℝ) (cols : Option (List κ)) (data : List (Triple κ))
    (s1 s2 s1' s2' r : Space κ) (h1 : s1.WF) (h2 : s2.WF) (h1' : s1'.WF) (h2' : s2'.WF) (hw : s1.mat.nc = s2.mat.nc)
    (hpos : 0 < s1.mat.nc) (m1 : MultipleOf t s1 s1') (m2 : MultipleOf t s2 s2')
    (hcols : ∀ l, cols = some l → l.Nodup ∧ (l ≠ [] → l.length = s1.mat.nc))
    (hr : ((⟨.weighted a b, cols⟩ : Composer κ).compose data (.tuple [s1, s2])).2 = .ok r) :
    ∃ r', ((⟨.weighted a b, cols⟩ : Composer κ).compose data (.tuple [s1', s2'])).2 = .ok r' ∧ r'.id2row = r.id2row ∧
      (∀ p1 p2, r'.getSim p1 p2 .cos none = r.getSim p1 p2 .cos none) ∧
      ∀ p n, r'.getNeighbours p n .cos none = r.getNeighbours p n .cos none := by
  have q1 : RowScaled s1 s1' := ⟨m1.rows, m1.width, fun i _ => ⟨t, ht, fun j _ => m1.values i j⟩⟩
  have q2 : RowScaled s2 s2' := ⟨m2.rows, m2.width, fun i _ => ⟨t, ht, fun j _ => m2.values i j⟩⟩
  have hvec : ∀ x ∈ s1.id2row, ∀ y ∈ s2.id2row, ∃ d : ℝ, 0 < d ∧ ∀ j < s1.mat.nc,
      (CModel.weighted a b).vec s1.mat.nc s2.mat.nc (s1'.vecOf x) (s2'.vecOf y) j =
        d * (CModel.weighted a b).vec s1.mat.nc s2.mat.nc (s1.vecOf x) (s2.vecOf y) j := by
    intro x _ y _
    refine ⟨t, ht, fun j _ => ?_⟩
    simp only [CModel.vec, weightedVec, Space.vecOf]
    rw [m1.rows, m2.rows, m1.values, m2.values]
    ring
  obtain ⟨wr, nr, r', e1, e2, e3⟩ := compose_rowScaled (c := ⟨.weighted a b, cols⟩) h1 h2 h1' h2' hw hpos q1 q2 m1.cols m2.cols
    (Or.inl ⟨a, b, rfl⟩) hcols hvec hr
  exact ⟨r', e1, e3.rows, fun p1 p2 => rowScaled_cos e3 e3 wr e2 wr e2 (by omega) rfl p1 p2,
    fun p n => rowScaled_neighbours e3 wr e2 (by omega) p n⟩

/-- Non-vacuity of C146: the first space normalised by row lengths, the second as a whole; and the unit changed to a third. -/
example (env : Env) : ∃ s1 s2 s1' s2' r r' : Space String, s1.apply env (.scaling (.rowNorm .length)) = .ok s1' ∧
    s2.apply env (.scaling (.norm .length)) = .ok s2' ∧
    ((⟨.multiplicative, none⟩ : Composer String).compose exData (.tuple [s1, s2])).2 = .ok r ∧
    ((⟨.multiplicative, none⟩ : Composer String).compose exData (.tuple [s1', s2'])).2 = .ok r' ∧
    r'.getSim "red_car" "red_car" .cos none = r.getSim "red_car" "red_car" .cos none := by
  obtain ⟨s1, hs1, w1, n1, r1, c1⟩ := exArg_ok .dense ["f1", "f2"] (by decide) rfl
  obtain ⟨s2, hs2, w2, n2, r2, c2⟩ := exArg_ok .sparse ["f1", "f2"] (by decide) rfl
  have hx : (ArgSpace.tuple [s1, s2]).extract = .ok (s1, s2) := (extract_iff _ _ _).2 (Or.inr ⟨rfl, c1.trans c2.symm⟩)
  have hw : s1.mat.nc = s2.mat.nc := n1.trans n2.symm
  have hpos : 0 < s1.mat.nc := by omega
  have p1 : 0 < s1.mat.nr := by rw [w1.nrows, r1]; simp
  have p2 : 0 < s2.mat.nr := by rw [w2.nrows, r2]; simp
  have nn : ∀ {ty : MTy} {cols : List String} {s : Space String}, exArg ty cols = .ok s → NonNegative s.mat.val := by
    intro ty cols s hs i j hi hj
    obtain ⟨e1, _⟩ := Space.new_eq_ok hs
    rw [e1] at hi hj ⊢
    have hi' : i < 2 := hi
    have hj' : j < 2 := hj
    show 0 ≤ (Mat.of 2 2 _).get i j
    rw [Mat.of_get_lt hi' hj']
    positivity
  have hv : knownTriples s1 s2 exData ≠ [] := by rw [exData_known r1 r2]; simp
  have hn : ((knownTriples s1 s2 exData).map (·.2.2)).Nodup := by rw [exData_known r1 r2]; simp
  obtain ⟨s1', a1⟩ := (C05_apply_total env s1 w1 p1 hpos).1 (.rowNorm .length) (nn hs1)
  obtain ⟨s2', a2⟩ := (C05_apply_total env s2 w2 p2 (hw ▸ hpos)).1 (.norm .length) (nn hs2)
  obtain ⟨r, hr1, _⟩ := C38_compose (⟨.multiplicative, none⟩ : Composer String) exData _ s1 s2 s1.mat.nc hx w1 w2
    ⟨hpos, hw ▸ hpos, hpos, hw, rfl⟩ (by intro _ h; cases h) hv hn
  obtain ⟨r', e1, _, e3, _⟩ := C146_normalised_words env ⟨.multiplicative, none⟩ exData s1 s2 s1' s2' r _ _ w1 w2 hw hpos p1 p2
    (Or.inl rfl) (Or.inr (Or.inl rfl)) a1 a2 (Or.inr rfl) (by intro _ h; cases h) hr1
  exact ⟨s1, s2, s1', s2', r, r', a1, a2, hr1, e1, e3 _ _⟩

example : ∃ s s' r r' : Space ℕ, MultipleOf (1 / 3) s s' ∧
    ((⟨.weighted 2 5, none⟩ : Composer ℕ).compose [(8, 9, 1), (9, 9, 2)] (.tuple [s, s])).2 = .ok r ∧
    ((⟨.weighted 2 5, none⟩ : Composer ℕ).compose [(8, 9, 1), (9, 9, 2)] (.tuple [s', s'])).2 = .ok r' ∧
    r'.getSim 1 2 .cos none = r.getSim 1 2 .cos none := by
  obtain ⟨s, a1, a2, a3, a4, a5⟩ := exists_space (Mat.of 2 2 (fun i j => (i : ℝ) + j)) [8, 9] (by simp) rfl none (by simp)
  obtain ⟨s', b1, b2, b3, b4, b5⟩ := exists_space (Mat.of 2 2 (fun i j => 1 / 3 * ((i : ℝ) + j))) [8, 9] (by simp) rfl none (by simp)
  have n1 : s.mat.nc = 2 := by rw [a2]; rfl
  have hm : MultipleOf (1 / 3) s s' := by
    refine ⟨by rw [a3, b3], by rw [a4, b4], by rw [a2, b2]; rfl, fun i j => ?_⟩
    rw [a2, b2]
    show (Mat.of 2 2 _).get i j = 1 / 3 * (Mat.of 2 2 _).get i j
    rw [Mat.of_get, Mat.of_get]
    split <;> simp
  have hk : knownTriples s s [(8, 9, 1), (9, 9, 2)] = [(8, 9, 1), (9, 9, 2)] := by
    unfold knownTriples
    rw [a3]
    rfl
  obtain ⟨r, hr1, _⟩ := C38_compose (⟨.weighted 2 5, none⟩ : Composer ℕ) [(8, 9, 1), (9, 9, 2)] (.tuple [s, s]) s s s.mat.nc
    ((extract_iff _ _ _).2 (Or.inr ⟨rfl, rfl⟩)) a1 a1
    ⟨by omega, by omega, by omega, rfl, rfl⟩ (by intro _ h; cases h) (by rw [hk]; simp) (by rw [hk]; decide)
  obtain ⟨r', e1, _, e3, _⟩ := C146_common_unit (1 / 3) (by norm_num) 2 5 none _ s s s' s' r a1 a1 b1 b1 rfl (by omega) hm hm
    (by intro _ h; cases h) hr1
  exact ⟨s, s', r, r', hm, hr1, e1, e3 _ _⟩

/-- `C145_multiplicative_neutral`: a word whose vector is all ones, and one whose vector is zero. -/
example : ∃ (s1 s2 r : Space ℕ), ((⟨.multiplicative, none⟩ : Composer ℕ).compose [(0, 7, 70), (1, 7, 71)] (.tuple [s1, s2])).2 = .ok r ∧
    (∀ j < 3, r.vecOf 70 j = s2.vecOf 7 j) ∧ (∀ j < 3, r.vecOf 71 j = 0) := by
  obtain ⟨s1, w1, m1, r1, c1, _⟩ := exists_space (Mat.of 2 3 (fun i _ => if i = 0 then (1 : ℝ) else 0)) [0, 1] (by simp) rfl none (by simp)
  obtain ⟨s2, w2, m2, r2, c2, _⟩ := exists_space (Mat.of 1 3 (fun _ j => (j : ℝ) + 5)) [7] (by simp) rfl none (by simp)
  have n1 : s1.mat.nc = 3 := by rw [m1]; rfl
  have n2 : s2.mat.nc = 3 := by rw [m2]; rfl
  have hx : (ArgSpace.tuple [s1, s2]).extract = .ok (s1, s2) := (extract_iff _ _ _).2 (Or.inr ⟨rfl, c1.trans c2.symm⟩)
  have hk : knownTriples s1 s2 [(0, 7, 70), (1, 7, 71)] = [(0, 7, 70), (1, 7, 71)] := by
    unfold knownTriples; rw [r1, r2]; rfl
  obtain ⟨r, hr, _⟩ := C38_compose (⟨.multiplicative, none⟩ : Composer ℕ) _ _ s1 s2 _ hx w1 w2
    (⟨by omega, by omega, by omega, by omega, rfl⟩ : CModel.multiplicative.Fits s1.mat.nc s2.mat.nc s1.mat.nc)
    (by intro _ h; cases h) (by rw [hk]; simp) (by rw [hk]; decide)
  have key := C145_multiplicative_neutral none _ _ s1 s2 r hx w1 w2 (n1.trans n2.symm) (by omega) (by intro _ h; cases h) hr
  have hv : ∀ i : ℕ, i < 2 → ∀ j < 3, s1.vecOf i j = if i = 0 then 1 else 0 := by
    intro i hi j hj
    have hid : s1.id2row.idxOf i = i := by rw [r1]; interval_cases i <;> rfl
    show s1.mat.val.get (s1.id2row.idxOf i) j = _
    rw [hid, m1]
    exact Mat.of_get_lt (nr := 2) (nc := 3) hi hj
  refine ⟨s1, s2, r, hr, ?_, ?_⟩
  · have := (key (0, 7, 70) (by simp) (by rw [r1]; simp) (by rw [r2]; simp)).1
    rw [n1] at this
    exact this (fun j hj => by rw [hv 0 (by omega) j hj]; simp)
  · have := (key (1, 7, 71) (by simp) (by rw [r1]; simp) (by rw [r2]; simp)).2.2
    rw [n1] at this
    exact this (Or.inl (fun j hj => by rw [hv 1 (by omega) j hj]; simp))

end
end Dissect
