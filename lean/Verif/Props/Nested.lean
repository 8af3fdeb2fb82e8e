import Verif.Props.ComposeSpecial
import Verif.Props.Lexical

/-! # C166: phrases of phrases

A composed space can be used as an argument space again: `compose` first gives a space `r` of phrases, then `compose` is called
with the pair `(r, s)` or `(s, r)` of the phrases and the words. -/

namespace Dissect
open Finset
noncomputable section
variable {κ : Type} [DecidableEq κ]

/-- The column labels the model puts on a composed space are those of the space of the words. -/
def Composer.KeepsColumns (c : Composer κ) (s : Space κ) : Prop :=
  c.columns = some s.id2col ∨ (c.columns = none ∧ ∀ A B i l, c.model ≠ .fullAdditive A B i l)

theorem keeps_fit {c : Composer κ} {s : Space κ} (hk : c.KeepsColumns s) (hs : s.WF) : c.ColumnsFit s.mat.nc := by
  intro cols hc
  rcases hk with hk | ⟨hk, -⟩
  · rw [hk] at hc
    injection hc with hc
    subst hc
    exact ⟨hs.cols.nodup, fun h => (hs.ncols h).symm⟩
  · rw [hk] at hc; cases hc

theorem dot_congr' {n : ℕ} {x x' y y' : ℕ → ℝ} (h1 : ∀ i < n, x i = x' i) (h2 : ∀ i < n, y i = y' i) : dot n x y = dot n x' y' := by
  unfold dot
  exact Finset.sum_congr rfl (fun i hi => by rw [h1 i (Finset.mem_range.1 hi), h2 i (Finset.mem_range.1 hi)])

theorem vec_congr' {c : CModel} {n1 n2 w : ℕ} (hf : c.Fits n1 n2 w) {u u' v v' : ℕ → ℝ} (h1 : ∀ i < n1, u i = u' i)
    (h2 : ∀ i < n2, v i = v' i) {j : ℕ} (hj : j < w) : c.vec n1 n2 u v j = c.vec n1 n2 u' v' j := by
  obtain ⟨-, -, -, hf⟩ := hf
  cases c with
  | weighted a b =>
    obtain ⟨e1, e2⟩ := hf
    simp only [CModel.vec, weightedVec]
    rw [h1 j (by omega), h2 j (by omega)]
  | dilation l =>
    obtain ⟨e1, e2⟩ := hf
    simp only [CModel.vec, dilationVec]
    rw [h1 j (by omega), h2 j (by omega), dot_congr' h1 h1, dot_congr' h1 (fun i hi => h2 i (by omega))]
  | multiplicative =>
    obtain ⟨e1, e2⟩ := hf
    simp only [CModel.vec, productVec]
    rw [h1 j (by omega), h2 j (by omega)]
  | fullAdditive A B i l =>
    cases A with
    | none => exact hf.elim
    | some A => cases B with
      | none => exact hf.elim
      | some B =>
        simp only [CModel.vec, affineVec]
        rw [dot_congr' (x := fun k => A.val.get k j) (fun _ _ => rfl) h1, dot_congr' (x := fun k => B.val.get k j) (fun _ _ => rfl) h2]

theorem nested_state {c c1 : Composer κ} {d : List (Triple κ)} {args : ArgSpace κ} {r : Space κ}
    (h : c.compose d args = (c1, .ok r)) : c1.model = c.model ∧ c1.columns = some r.id2col := by
  unfold Composer.compose at h
  cases hd : c.model.composeData d args with
  | error e => rw [hd] at h; cases h
  | ok v =>
    obtain ⟨t, l, m⟩ := v
    rw [hd] at h
    simp only [Prod.mk.injEq] at h
    obtain ⟨rfl, h⟩ := h
    exact ⟨rfl, by rw [(Space.new_eq_ok h).2.2.1]⟩

theorem keeps_columns {c : Composer κ} {s r : Space κ} (hk : c.KeepsColumns s) {d : List (Triple κ)}
    (h : (c.compose d (.one s)).2 = .ok r) : r.id2col = s.id2col := by
  have ex : (ArgSpace.one s).extract = .ok (s, s) := (extract_iff _ _ _).2 (Or.inl ⟨rfl, rfl⟩)
  obtain ⟨h1, h2, -⟩ := C38_columns c d (.one s) s s r ex h
  rcases hk with hk | ⟨hk, hm⟩
  · exact h1 _ hk
  · exact h2 hk hm

/-- **C166** A composed phrase can be composed with a further word, with the same model: the second call succeeds and the vector
of the longer phrase is the one computed from the vectors of the shorter phrase and the word. -/
theorem C166_left_partial (c c1 : Composer κ) (s r : Space κ) (d1 d2 : List (Triple κ)) (hs : s.WF)
    (hf : c.model.Fits s.mat.nc s.mat.nc s.mat.nc) (hk : c.KeepsColumns s) (h1 : c.compose d1 (.one s) = (c1, .ok r))
    (hv : knownTriples r s d2 ≠ []) (hn : ((knownTriples r s d2).map (·.2.2)).Nodup) :
    ∃ r2, (c1.compose d2 (.tuple [r, s])).2 = .ok r2 ∧ r2.WF ∧ r2.id2col = s.id2col ∧
      r2.id2row = (knownTriples r s d2).map (·.2.2) ∧
      ∀ x y p z q, (x, y, p) ∈ d1 → x ∈ s.id2row → y ∈ s.id2row → (p, z, q) ∈ d2 → z ∈ s.id2row →
        q ∈ r2.id2row ∧ ∀ j < s.mat.nc, r2.vecOf q j =
          c.model.vec s.mat.nc s.mat.nc (c.model.vec s.mat.nc s.mat.nc (s.vecOf x) (s.vecOf y)) (s.vecOf z) j := by
  have ex : (ArgSpace.one s).extract = .ok (s, s) := (extract_iff _ _ _).2 (Or.inl ⟨rfl, rfl⟩)
  have h1' : (c.compose d1 (.one s)).2 = .ok r := by rw [h1]
  obtain ⟨-, n1, q1⟩ := compose_success ex hs hs hf (keeps_fit hk hs) h1'
  have hcol := keeps_columns hk h1'
  obtain ⟨e1, e2⟩ := nested_state h1
  have ex2 : (ArgSpace.tuple [r, s]).extract = .ok (r, s) := (extract_iff _ _ _).2 (Or.inr ⟨rfl, hcol⟩)
  have hf2 : c1.model.Fits r.mat.nc s.mat.nc s.mat.nc := by rw [e1, q1.width]; exact hf
  have hc2 : c1.ColumnsFit s.mat.nc := keeps_fit (Or.inl (by rw [e2, hcol])) hs
  obtain ⟨r2, g1, g2⟩ := C38_compose c1 d2 (.tuple [r, s]) r s s.mat.nc ex2 q1.wf hs hf2 hc2 hv hn
  refine ⟨r2, g1, g2.wf, ?_, g2.labels, fun x y p z q m1 mx my m2 mz => ?_⟩
  · rw [(C38_columns c1 d2 _ r s r2 ex2 g1).1 _ e2, hcol]
  · have k1 : (x, y, p) ∈ knownTriples s s d1 := mem_known.2 ⟨m1, mx, my⟩
    have hp : p ∈ r.id2row := by rw [q1.labels]; exact List.mem_map.2 ⟨_, k1, rfl⟩
    have k2 : (p, z, q) ∈ knownTriples r s d2 := mem_known.2 ⟨m2, hp, mz⟩
    refine ⟨by rw [g2.labels]; exact List.mem_map.2 ⟨_, k2, rfl⟩, fun j hj => ?_⟩
    rw [composed_vec hn g2 k2 hp mz hj, e1, q1.width]
    exact vec_congr' hf (fun i hi => composed_vec n1 q1 k1 mx my hi) (fun i _ => rfl) hj

/-- **C166** The same with the phrase in the second place. -/
theorem C166_right_partial (c c1 : Composer κ) (s r : Space κ) (d1 d2 : List (Triple κ)) (hs : s.WF)
    (hf : c.model.Fits s.mat.nc s.mat.nc s.mat.nc) (hk : c.KeepsColumns s) (h1 : c.compose d1 (.one s) = (c1, .ok r))
    (hv : knownTriples s r d2 ≠ []) (hn : ((knownTriples s r d2).map (·.2.2)).Nodup) :
    ∃ r2, (c1.compose d2 (.tuple [s, r])).2 = .ok r2 ∧ r2.WF ∧ r2.id2col = s.id2col ∧
      r2.id2row = (knownTriples s r d2).map (·.2.2) ∧
      ∀ x y p z q, (x, y, p) ∈ d1 → x ∈ s.id2row → y ∈ s.id2row → (z, p, q) ∈ d2 → z ∈ s.id2row →
        q ∈ r2.id2row ∧ ∀ j < s.mat.nc, r2.vecOf q j =
          c.model.vec s.mat.nc s.mat.nc (s.vecOf z) (c.model.vec s.mat.nc s.mat.nc (s.vecOf x) (s.vecOf y)) j := by
  have ex : (ArgSpace.one s).extract = .ok (s, s) := (extract_iff _ _ _).2 (Or.inl ⟨rfl, rfl⟩)
  have h1' : (c.compose d1 (.one s)).2 = .ok r := by rw [h1]
  obtain ⟨-, n1, q1⟩ := compose_success ex hs hs hf (keeps_fit hk hs) h1'
  have hcol := keeps_columns hk h1'
  obtain ⟨e1, e2⟩ := nested_state h1
  have ex2 : (ArgSpace.tuple [s, r]).extract = .ok (s, r) := (extract_iff _ _ _).2 (Or.inr ⟨rfl, hcol.symm⟩)
  have hf2 : c1.model.Fits s.mat.nc r.mat.nc s.mat.nc := by rw [e1, q1.width]; exact hf
  have hc2 : c1.ColumnsFit s.mat.nc := keeps_fit (Or.inl (by rw [e2, hcol])) hs
  obtain ⟨r2, g1, g2⟩ := C38_compose c1 d2 (.tuple [s, r]) s r s.mat.nc ex2 hs q1.wf hf2 hc2 hv hn
  refine ⟨r2, g1, g2.wf, ?_, g2.labels, fun x y p z q m1 mx my m2 mz => ?_⟩
  · rw [(C38_columns c1 d2 _ s r r2 ex2 g1).1 _ e2, hcol]
  · have k1 : (x, y, p) ∈ knownTriples s s d1 := mem_known.2 ⟨m1, mx, my⟩
    have hp : p ∈ r.id2row := by rw [q1.labels]; exact List.mem_map.2 ⟨_, k1, rfl⟩
    have k2 : (z, p, q) ∈ knownTriples s r d2 := mem_known.2 ⟨m2, mz, hp⟩
    refine ⟨by rw [g2.labels]; exact List.mem_map.2 ⟨_, k2, rfl⟩, fun j hj => ?_⟩
    rw [composed_vec hn g2 k2 mz hp hj, e1, q1.width]
    exact vec_congr' hf (fun i _ => rfl) (fun i hi => composed_vec n1 q1 k1 mx my hi) hj

/-- The vector of `x y z`, composed as `(x y) z`, in a space obtained by composing twice. -/
def NestedLeft (c : Composer κ) (s : Space κ) (x y z : κ) (v : ℕ → ℝ) : Prop :=
  ∃ (c1 : Composer κ) (d1 d2 : List (Triple κ)) (r r2 : Space κ) (p q : κ), c.compose d1 (.one s) = (c1, .ok r) ∧
    (c1.compose d2 (.tuple [r, s])).2 = .ok r2 ∧ (x, y, p) ∈ d1 ∧ (p, z, q) ∈ d2 ∧ x ∈ s.id2row ∧ y ∈ s.id2row ∧ z ∈ s.id2row ∧
    v = r2.vecOf q

/-- The vector of `x y z`, composed as `x (y z)`. -/
def NestedRight (c : Composer κ) (s : Space κ) (x y z : κ) (v : ℕ → ℝ) : Prop :=
  ∃ (c1 : Composer κ) (d1 d2 : List (Triple κ)) (r r2 : Space κ) (p q : κ), c.compose d1 (.one s) = (c1, .ok r) ∧
    (c1.compose d2 (.tuple [s, r])).2 = .ok r2 ∧ (y, z, p) ∈ d1 ∧ (x, p, q) ∈ d2 ∧ x ∈ s.id2row ∧ y ∈ s.id2row ∧ z ∈ s.id2row ∧
    v = r2.vecOf q

theorem nested_left {c : Composer κ} {s : Space κ} (hs : s.WF) (hf : c.model.Fits s.mat.nc s.mat.nc s.mat.nc) (hk : c.KeepsColumns s)
    {x y z : κ} {v : ℕ → ℝ} (h : NestedLeft c s x y z v) {j : ℕ} (hj : j < s.mat.nc) :
    v j = c.model.vec s.mat.nc s.mat.nc (c.model.vec s.mat.nc s.mat.nc (s.vecOf x) (s.vecOf y)) (s.vecOf z) j := by
  obtain ⟨c1, d1, d2, r, r2, p, q, h1, h2, m1, m2, mx, my, mz, rfl⟩ := h
  have ex : (ArgSpace.one s).extract = .ok (s, s) := (extract_iff _ _ _).2 (Or.inl ⟨rfl, rfl⟩)
  have h1' : (c.compose d1 (.one s)).2 = .ok r := by rw [h1]
  obtain ⟨-, n1, q1⟩ := compose_success ex hs hs hf (keeps_fit hk hs) h1'
  have hcol := keeps_columns hk h1'
  obtain ⟨e1, e2⟩ := nested_state h1
  have ex2 : (ArgSpace.tuple [r, s]).extract = .ok (r, s) := (extract_iff _ _ _).2 (Or.inr ⟨rfl, hcol⟩)
  have hf2 : c1.model.Fits r.mat.nc s.mat.nc s.mat.nc := by rw [e1, q1.width]; exact hf
  have hc2 : c1.ColumnsFit s.mat.nc := keeps_fit (Or.inl (by rw [e2, hcol])) hs
  obtain ⟨hv, hn, -⟩ := compose_success ex2 q1.wf hs hf2 hc2 h2
  obtain ⟨r3, g1, -, -, -, g⟩ := C166_left_partial c c1 s r d1 d2 hs hf hk h1 hv hn
  rw [h2] at g1
  obtain rfl := ok_inj g1
  exact (g x y p z q m1 mx my m2 mz).2 j hj

theorem nested_right {c : Composer κ} {s : Space κ} (hs : s.WF) (hf : c.model.Fits s.mat.nc s.mat.nc s.mat.nc) (hk : c.KeepsColumns s)
    {x y z : κ} {v : ℕ → ℝ} (h : NestedRight c s x y z v) {j : ℕ} (hj : j < s.mat.nc) :
    v j = c.model.vec s.mat.nc s.mat.nc (s.vecOf x) (c.model.vec s.mat.nc s.mat.nc (s.vecOf y) (s.vecOf z)) j := by
  obtain ⟨c1, d1, d2, r, r2, p, q, h1, h2, m1, m2, mx, my, mz, rfl⟩ := h
  have ex : (ArgSpace.one s).extract = .ok (s, s) := (extract_iff _ _ _).2 (Or.inl ⟨rfl, rfl⟩)
  have h1' : (c.compose d1 (.one s)).2 = .ok r := by rw [h1]
  obtain ⟨-, n1, q1⟩ := compose_success ex hs hs hf (keeps_fit hk hs) h1'
  have hcol := keeps_columns hk h1'
  obtain ⟨e1, e2⟩ := nested_state h1
  have ex2 : (ArgSpace.tuple [s, r]).extract = .ok (s, r) := (extract_iff _ _ _).2 (Or.inr ⟨rfl, hcol.symm⟩)
  have hf2 : c1.model.Fits s.mat.nc r.mat.nc s.mat.nc := by rw [e1, q1.width]; exact hf
  have hc2 : c1.ColumnsFit s.mat.nc := keeps_fit (Or.inl (by rw [e2, hcol])) hs
  obtain ⟨hv, hn, -⟩ := compose_success ex2 hs q1.wf hf2 hc2 h2
  obtain ⟨r3, g1, -, -, -, g⟩ := C166_right_partial c c1 s r d1 d2 hs hf hk h1 hv hn
  rw [h2] at g1
  obtain rfl := ok_inj g1
  exact (g y z p x q m1 my mz m2 mx).2 j hj

/-- **C166** The grouping does not matter for multiplicative composition and for plain sums: `(x y) z` and `x (y z)` get the
same vector. -/
theorem C166_grouping (c : Composer κ) (s : Space κ) (hs : s.WF) (hpos : 0 < s.mat.nc)
    (hm : c = newMultiplicative ∨ newWeighted (.num 1) (.num 1) = .ok c) (x y z : κ) (v v' : ℕ → ℝ)
    (h1 : NestedLeft c s x y z v) (h2 : NestedRight c s x y z v') : ∀ j < s.mat.nc, v j = v' j := by
  intro j hj
  rcases hm with rfl | hm
  · have hf : (newMultiplicative : Composer κ).model.Fits s.mat.nc s.mat.nc s.mat.nc := ⟨hpos, hpos, hpos, rfl, rfl⟩
    have hk : (newMultiplicative : Composer κ).KeepsColumns s := Or.inr ⟨rfl, fun _ _ _ _ h => by cases h⟩
    rw [nested_left hs hf hk h1 hj, nested_right hs hf hk h2 hj]
    simp only [newMultiplicative, CModel.vec, productVec]
    ring
  · obtain rfl := ok_inj hm
    have hf : (⟨.weighted 1 1, none⟩ : Composer κ).model.Fits s.mat.nc s.mat.nc s.mat.nc := ⟨hpos, hpos, hpos, rfl, rfl⟩
    have hk : (⟨.weighted 1 1, none⟩ : Composer κ).KeepsColumns s := Or.inr ⟨rfl, fun _ _ _ _ h => by cases h⟩
    rw [nested_left hs hf hk h1 hj, nested_right hs hf hk h2 hj]
    simp only [CModel.vec, weightedVec]
    ring

/-- **C166** For other weights it matters: the two groupings agree in component `j` exactly when
`alpha (1 - alpha) x = beta (1 - beta) z` there. -/
theorem C166_grouping_weights (a b : ℝ) (c : Composer κ) (s : Space κ) (hs : s.WF) (hpos : 0 < s.mat.nc)
    (hm : newWeighted (.num a) (.num b) = .ok c) (x y z : κ) (v v' : ℕ → ℝ) (h1 : NestedLeft c s x y z v)
    (h2 : NestedRight c s x y z v') : ∀ j < s.mat.nc,
      (v j = v' j ↔ a * (1 - a) * s.vecOf x j = b * (1 - b) * s.vecOf z j) := by
  intro j hj
  obtain rfl := ok_inj hm
  have hf : (⟨.weighted a b, none⟩ : Composer κ).model.Fits s.mat.nc s.mat.nc s.mat.nc := ⟨hpos, hpos, hpos, rfl, rfl⟩
  have hk : (⟨.weighted a b, none⟩ : Composer κ).KeepsColumns s := Or.inr ⟨rfl, fun _ _ _ _ h => by cases h⟩
  rw [nested_left hs hf hk h1 hj, nested_right hs hf hk h2 hj]
  simp only [CModel.vec, weightedVec]
  constructor <;> intro h <;> linarith

/-- **C166** (not for every model) The spaces composed by a `FullAdditive` model built from its two matrices have no column
labels. If the words have column labels, no model composes these phrases with the words: `ValueError`. -/
theorem C166_refuted (A B : TMat ℝ) (c c1 c' : Composer κ) (s r : Space κ) (d1 d2 : List (Triple κ))
    (hc : newFullAdditive A B = .ok c) (h1 : c.compose d1 (.one s) = (c1, .ok r)) (hcol : s.id2col ≠ []) :
    r.id2col = [] ∧ c'.compose d2 (.tuple [r, s]) = (c', .error .valueError) ∧
      c'.compose d2 (.tuple [s, r]) = (c', .error .valueError) := by
  have ex : (ArgSpace.one s).extract = .ok (s, s) := (extract_iff _ _ _).2 (Or.inl ⟨rfl, rfl⟩)
  have h1' : (c.compose d1 (.one s)).2 = .ok r := by rw [h1]
  have hr : r.id2col = [] := by
    simp only [newFullAdditive, bind_eq_ok, pure_eq_ok] at hc
    obtain ⟨⟨a', b'⟩, -, x, -, y, -, hc⟩ := hc
    obtain rfl := ok_inj hc
    exact (C38_columns _ d1 (.one s) s s r ex h1').2.2 rfl ⟨_, _, _, _, rfl⟩
  refine ⟨hr, C38_bad_spaces _ _ _ (Or.inr ⟨r, s, rfl, ?_⟩), C38_bad_spaces _ _ _ (Or.inr ⟨s, r, rfl, ?_⟩)⟩
  · rw [hr]; exact hcol.symm
  · rw [hr]; exact hcol

theorem lexVec_congr' {n : ℕ} {ic : Bool} {F v v' : ℕ → ℝ} (h : ∀ i < n, v i = v' i) (j : ℕ) : lexVec n ic F v j = lexVec n ic F v' j := by
  simp only [lexVec]
  rw [Finset.sum_congr rfl (fun i hi => by rw [h i (Finset.mem_range.1 hi)])]

/-- **C166** Lexical functions: with functions from vectors of length `n` to vectors of length `n`, a composed phrase is an
argument again, and its function is applied to the result of the first one. -/
theorem C166_lexical (m : LexFun κ) (fs s : Space κ) (d1 d2 : List (Triple κ)) (hm : m.functions = some fs) (hf : fs.WF) (hs : s.WF)
    (hn : 0 < s.mat.nc) (hsh : fs.elemShape = [s.mat.nc, if m.intercept then s.mat.nc + 1 else s.mat.nc])
    (hcn : m.columns.Nodup) (hcl : m.columns ≠ [] → m.columns.length = s.mat.nc)
    (hv : knownTriples fs s d1 ≠ []) (hnd : ((knownTriples fs s d1).map (·.2.2)).Nodup) :
    ∃ r, m.compose d1 s = .ok r ∧ r.mat.nc = s.mat.nc ∧
      (knownTriples fs r d2 ≠ [] → ((knownTriples fs r d2).map (·.2.2)).Nodup →
      ∃ r2, m.compose d2 r = .ok r2 ∧ r2.id2row = (knownTriples fs r d2).map (·.2.2) ∧
        ∀ f x p g q, (f, x, p) ∈ d1 → f ∈ fs.id2row → x ∈ s.id2row → (g, p, q) ∈ d2 → g ∈ fs.id2row →
          q ∈ r2.id2row ∧ ∀ j < s.mat.nc, r2.vecOf q j =
            lexVec s.mat.nc m.intercept (fs.vecOf g) (lexVec s.mat.nc m.intercept (fs.vecOf f) (s.vecOf x)) j) := by
  obtain ⟨r, a1, a2, a3, a4, -, a6⟩ := C45_compose m fs s d1 [s.mat.nc] hm hf hs (by simp) (by simpa using hn) hn (by simpa using hsh)
    hcn (by simpa using hcl) hv hnd
  have hw : r.mat.nc = s.mat.nc := by
    have := a2.shape
    rw [a4] at this
    simpa using this.symm
  refine ⟨r, a1, hw, fun hv2 hnd2 => ?_⟩
  obtain ⟨r2, b1, b2, b3, b4, -, b6⟩ := C45_compose m fs r d2 [s.mat.nc] hm hf a2 (by simp) (by simpa using hn) (by rw [hw]; exact hn)
    (by rw [hw]; simpa using hsh) hcn (by simpa using hcl) hv2 hnd2
  refine ⟨r2, b1, b3, fun f x p g q m1 mf mx m2 mg => ?_⟩
  have k1 : (f, x, p) ∈ knownTriples fs s d1 := mem_known.2 ⟨m1, mf, mx⟩
  have hp : p ∈ r.id2row := by rw [a3]; exact List.mem_map.2 ⟨_, k1, rfl⟩
  have k2 : (g, p, q) ∈ knownTriples fs r d2 := mem_known.2 ⟨m2, mg, hp⟩
  refine ⟨by rw [b3]; exact List.mem_map.2 ⟨_, k2, rfl⟩, fun j hj => ?_⟩
  have i1 : r.id2row.idxOf p = ((knownTriples fs s d1).map (·.2.2)).idxOf p := by rw [a3]
  have i2 : r2.id2row.idxOf q = ((knownTriples fs r d2).map (·.2.2)).idxOf q := by rw [b3]
  show r2.mat.val.get _ j = _
  rw [i2, b6 _ g p q (idxOf_phrase hnd2 k2) j (by simpa using hj), hw]
  have key : ∀ i < s.mat.nc, r.vecOf p i = lexVec s.mat.nc m.intercept (fs.vecOf f) (s.vecOf x) i := by
    intro i hi
    show r.mat.val.get _ i = _
    rw [i1, a6 _ f x p (idxOf_phrase hnd k1) i (by simpa using hi)]
  exact lexVec_congr' key j

end
end Dissect
