import Verif.Model.NmfInit
import Verif.Lemmas.Nmf
import Verif.Lemmas.Lexical
import Verif.Props.Svd
import Verif.Props.Nmf

/-! # Lemmas about the other initialisations of NMF -/

namespace Dissect
open Finset
noncomputable section

theorem foldl_hstack (ts : List (TMat ℝ)) : ∀ A : Mat ℝ,
    ts.foldl (fun acc u => acc.hstack u.val) A =
      ((ts.map (fun u => (⟨u.ty, u.val.transpose⟩ : TMat ℝ))).foldl (fun acc u => acc.vstack u.val) A.transpose).transpose := by
  induction ts with
  | nil => intro A; rfl
  | cons t ts ih => intro A; rw [List.foldl_cons, ih]; rfl

/-- Stacking 1-column matrices. -/
theorem naryHstack_ok {ty : MTy} {n : ℕ} (hn : 0 < n) (l : List (TMat ℝ)) (hl : l ≠ [])
    (h : ∀ u ∈ l, u.ty = ty ∧ u.nr = n ∧ u.nc = 1) :
    ∃ M : Mat ℝ, TMat.naryHstack ty l = .ok ⟨ty, M⟩ ∧ M.nr = n ∧ M.nc = l.length ∧
      ∀ k u i, l[k]? = some u → M.get i k = u.val.get i 0 := by
  cases l with
  | nil => exact absurd rfl hl
  | cons t ts =>
    obtain ⟨h1, h2, h3⟩ := h t (by simp)
    have h2' : t.val.nr = n := h2
    have h3' : t.val.nc = 1 := h3
    obtain ⟨i1, i2, i3, i4⟩ := foldl_vstack n (ts.map (fun u => (⟨u.ty, u.val.transpose⟩ : TMat ℝ))) t.val.transpose h2
      (by
        intro u hu
        obtain ⟨x, hx, rfl⟩ := List.mem_map.1 hu
        exact (h x (by simp [hx])).2)
    refine ⟨ts.foldl (fun acc u => acc.hstack u.val) t.val, ?_, ?_, ?_, ?_⟩
    · simp only [TMat.naryHstack]
      rw [if_pos, if_pos]
      · refine TMat.wrap_ok_pos ?_ ?_
        · rw [foldl_hstack, Mat.transpose_nr, i2]; exact hn
        · rw [foldl_hstack, Mat.transpose_nc, i1, Mat.transpose_nr, h3']; omega
      · rw [List.all_eq_true]
        intro u hu
        rw [decide_eq_true_eq, (h u (by simp [hu])).2.1, h2]
      · rw [List.all_eq_true]
        intro u hu
        rw [decide_eq_true_eq, (h u hu).1]
    · rw [foldl_hstack, Mat.transpose_nr, i2]
    · rw [foldl_hstack, Mat.transpose_nc, i1, Mat.transpose_nr, h3', List.length_map, List.length_cons]; omega
    · intro k u i hk
      rw [foldl_hstack, Mat.transpose_get]
      cases k with
      | zero =>
        simp only [List.getElem?_cons_zero, Option.some.injEq] at hk
        subst hk
        exact i3 0 i (by rw [Mat.transpose_nr]; omega)
      | succ k =>
        have := i4 k ⟨u.ty, u.val.transpose⟩ i (by
          rw [List.getElem?_map]
          have : ts[k]? = some u := by simpa using hk
          rw [this]; rfl)
        rw [Mat.transpose_nr, h3', Nat.add_comm] at this
        exact this

/-- Positive part of a number. -/
def posPart' (x : ℝ) : ℝ := if 0 < x then x else 0
/-- Negative part of a number. -/
def negPart' (x : ℝ) : ℝ := posPart' x - x

theorem posPart'_nonneg (x : ℝ) : 0 ≤ posPart' x := allNonneg_pos x
theorem negPart'_nonneg (x : ℝ) : 0 ≤ negPart' x := by
  unfold negPart' posPart'; split <;> linarith
theorem posPart'_eq_max (x : ℝ) : posPart' x = max x 0 := by
  unfold posPart'; split
  · rename_i h; exact (max_eq_left h.le).symm
  · rename_i h; exact (max_eq_right (not_lt.1 h)).symm
theorem negPart'_eq_max (x : ℝ) : negPart' x = max (-x) 0 := by
  unfold negPart' posPart'; split
  · rename_i h; rw [max_eq_right (by linarith)]; ring
  · rename_i h; rw [max_eq_left (by linarith)]; ring
theorem abs_eq_parts (x : ℝ) : posPart' x + (posPart' x - x) = |x| := by
  unfold posPart'; split
  · rename_i h; rw [abs_of_pos h]; ring
  · rename_i h; rw [abs_of_nonpos (not_lt.1 h)]; ring

theorem len2_nonneg (n : ℕ) (f : ℕ → ℝ) : 0 ≤ len2 n f := Real.sqrt_nonneg _

theorem norm_col {t : TMat ℝ} (hc : t.nc = 1) : t.norm = len2 t.nr (fun i => t.val.get i 0) := by
  unfold TMat.norm len2
  rw [hc]
  simp

theorem norm_row1 {t : TMat ℝ} (hr : t.nr = 1) : t.norm = len2 t.nc (fun j => t.val.get 0 j) := by
  unfold TMat.norm len2
  rw [hr]
  simp

/-- The core of NNDSVD: for `A ≥ 0` and a singular triple with positive singular value, the section with the larger
product of lengths has two non-zero parts. -/
theorem section_pos (A : Mat ℝ) (hA : NonNegative A) (x y : ℕ → ℝ) (s : ℝ) (hs : 0 < s)
    (hx : ∑ i ∈ range A.nr, x i * x i = 1) (hy : ∑ j ∈ range A.nc, y j * y j = 1)
    (ht : ∀ i < A.nr, ∑ j ∈ range A.nc, A.get i j * y j = s * x i) :
    (len2 A.nr (negPart' ∘ x) * len2 A.nc (negPart' ∘ y) ≤ len2 A.nr (posPart' ∘ x) * len2 A.nc (posPart' ∘ y) →
      0 < len2 A.nr (posPart' ∘ x) ∧ 0 < len2 A.nc (posPart' ∘ y)) ∧
    (¬ len2 A.nr (negPart' ∘ x) * len2 A.nc (negPart' ∘ y) ≤ len2 A.nr (posPart' ∘ x) * len2 A.nc (posPart' ∘ y) →
      0 < len2 A.nr (negPart' ∘ x) ∧ 0 < len2 A.nc (negPart' ∘ y)) := by
  set a := len2 A.nr (posPart' ∘ x)
  set b := len2 A.nr (negPart' ∘ x)
  set c := len2 A.nc (posPart' ∘ y)
  set d := len2 A.nc (negPart' ∘ y)
  have ha : 0 ≤ a := len2_nonneg _ _
  have hb : 0 ≤ b := len2_nonneg _ _
  have hc : 0 ≤ c := len2_nonneg _ _
  have hd : 0 ≤ d := len2_nonneg _ _
  have xpos : a = 0 → ∀ i < A.nr, x i ≤ 0 := fun h i hi => by
    have := len2_eq_zero.1 h i hi
    simp only [Function.comp, posPart'] at this
    split at this
    · linarith
    · rename_i h; exact not_lt.1 h
  have xneg : b = 0 → ∀ i < A.nr, 0 ≤ x i := fun h i hi => by
    have := len2_eq_zero.1 h i hi
    simp only [Function.comp, negPart', posPart'] at this
    split at this
    · rename_i h; exact h.le
    · linarith
  have ypos : c = 0 → ∀ i < A.nc, y i ≤ 0 := fun h i hi => by
    have := len2_eq_zero.1 h i hi
    simp only [Function.comp, posPart'] at this
    split at this
    · linarith
    · rename_i h; exact not_lt.1 h
  have yneg : d = 0 → ∀ i < A.nc, 0 ≤ y i := fun h i hi => by
    have := len2_eq_zero.1 h i hi
    simp only [Function.comp, negPart', posPart'] at this
    split at this
    · rename_i h; exact h.le
    · linarith
  have xz : ¬ ∀ i < A.nr, x i = 0 := fun h => by
    rw [Finset.sum_eq_zero (fun i hi => by rw [h i (Finset.mem_range.1 hi), mul_zero])] at hx
    exact zero_ne_one hx
  have yz : ¬ ∀ i < A.nc, y i = 0 := fun h => by
    rw [Finset.sum_eq_zero (fun i hi => by rw [h i (Finset.mem_range.1 hi), mul_zero])] at hy
    exact zero_ne_one hy
  have hab : ¬ (a = 0 ∧ b = 0) := fun ⟨h1, h2⟩ => xz (fun i hi => le_antisymm (xpos h1 i hi) (xneg h2 i hi))
  have hcd : ¬ (c = 0 ∧ d = 0) := fun ⟨h1, h2⟩ => yz (fun i hi => le_antisymm (ypos h1 i hi) (yneg h2 i hi))
  have had : ¬ (a = 0 ∧ d = 0) := fun ⟨h1, h2⟩ => xz (fun i hi => by
    have h3 : 0 ≤ s * x i := by
      rw [← ht i hi]
      exact Finset.sum_nonneg (fun j hj => mul_nonneg (hA i j hi (Finset.mem_range.1 hj)) (yneg h2 j (Finset.mem_range.1 hj)))
    exact le_antisymm (xpos h1 i hi) (nonneg_of_mul_nonneg_right h3 hs))
  have hbc : ¬ (b = 0 ∧ c = 0) := fun ⟨h1, h2⟩ => xz (fun i hi => by
    have h3 : s * x i ≤ 0 := by
      rw [← ht i hi]
      exact Finset.sum_nonpos (fun j hj => mul_nonpos_of_nonneg_of_nonpos (hA i j hi (Finset.mem_range.1 hj))
        (ypos h2 j (Finset.mem_range.1 hj)))
    exact le_antisymm (nonpos_of_mul_nonpos_right h3 hs) (xneg h1 i hi))
  refine ⟨fun h => ?_, fun h => ?_⟩
  · by_contra hcon
    rw [not_and_or] at hcon
    have hz : a = 0 ∨ c = 0 := hcon.imp (fun h => le_antisymm (not_lt.1 h) ha) (fun h => le_antisymm (not_lt.1 h) hc)
    have hP : a * c = 0 := by rcases hz with h | h <;> simp [h]
    have hN : b * d = 0 := le_antisymm (hP ▸ h) (mul_nonneg hb hd)
    rcases mul_eq_zero.1 hN with h4 | h4 <;> rcases hz with h5 | h5
    · exact hab ⟨h5, h4⟩
    · exact hbc ⟨h4, h5⟩
    · exact had ⟨h5, h4⟩
    · exact hcd ⟨h5, h4⟩
  · have : 0 < b * d := lt_of_le_of_lt (mul_nonneg ha hc) (not_le.1 h)
    exact ⟨lt_of_le_of_ne hb (fun e => by rw [← e, zero_mul] at this; exact lt_irrefl _ this),
      lt_of_le_of_ne hd (fun e => by rw [← e, mul_zero] at this; exact lt_irrefl _ this)⟩

/-- What `Linalg.svd` hands to the initialisation. -/
structure SvdOut (m : TMat ℝ) (n : ℕ) (u : TMat ℝ) (s : Arr ℝ) (v : TMat ℝ) : Prop where
  uty : u.ty = m.ty
  unr : u.nr = m.nr
  unc : u.nc = n
  vty : v.ty = m.ty
  vnr : v.nr = m.nc
  vnc : v.nc = n
  slen : s.data.length = n
  spos : ∀ j < n, 0 < s.data.getD j 0
  uunit : ∀ j < n, ∑ i ∈ range m.nr, u.val.get i j * u.val.get i j = 1
  vunit : ∀ j < n, ∑ i ∈ range m.nc, v.val.get i j * v.val.get i j = 1
  triple : ∀ i j, i < m.nr → j < n → ∑ l ∈ range m.nc, m.val.get i l * v.val.get l j = s.data.getD j 0 * u.val.get i j

theorem arrGet_ok {s : Arr ℝ} {i : ℕ} (h : i < s.data.length) : arrGet s i = .ok (s.data.getD i 0) := by
  unfold arrGet
  rw [List.getElem?_eq_getElem h]
  simp [List.getD, List.getElem?_eq_getElem h]

theorem pySqrt_ok {x : ℝ} (h : 0 ≤ x) : pySqrt x = .ok (Real.sqrt x) := by
  unfold pySqrt; rw [if_neg (not_lt.2 h)]

theorem getCols_one {t : TMat ℝ} {i : ℕ} (h : i < t.nc) (hr : 0 < t.nr) : t.getCols [i] = .ok ⟨t.ty, t.val.selCols [i]⟩ := by
  unfold TMat.getCols
  rw [if_pos (by simpa using h)]
  exact TMat.wrap_ok_pos hr (by simp)

theorem getRow_nat {t : TMat ℝ} {i : ℕ} (h : i < t.nr) (hc : 0 < t.nc) : t.getRow (i : ℤ) = .ok ⟨t.ty, t.val.row i⟩ := by
  unfold TMat.getRow
  have : pyIdx t.nr (i : ℤ) = some i := by
    unfold pyIdx
    simp [h]
  rw [this]
  exact TMat.wrap_ok_pos (by simp [Mat.row]) hc

theorem selCols_one_get (A : Mat ℝ) (i r : ℕ) : (A.selCols [i]).get r 0 = A.get r i :=
  Mat.selCols_get_some (by simp) r

theorem matrixAbs_ok {t : TMat ℝ} (hr : 0 < t.nr) (hc : 0 < t.nc) :
    ∃ M : Mat ℝ, matrixAbs t = .ok ⟨t.ty, M⟩ ∧ M.nr = t.nr ∧ M.nc = t.nc ∧
      ∀ i j, i < t.nr → j < t.nc → M.get i j = |t.val.get i j| := by
  unfold matrixAbs
  have e1 := TMat.getNonNegative_ok (s := t) hr hc
  have e2 := TMat.sub_ok (s := ⟨t.ty, t.val.map (fun x => if 0 < x then x else 0)⟩) (t := t) rfl rfl rfl hr hc
  have e3 := TMat.add_ok (s := ⟨t.ty, t.val.map (fun x => if 0 < x then x else 0)⟩)
    (t := ⟨t.ty, (t.val.map (fun x => if 0 < x then x else 0)).sub t.val⟩) rfl rfl rfl hr hc
  rw [e1, ok_bind, e2, ok_bind, e3]
  refine ⟨_, rfl, rfl, rfl, ?_⟩
  intro i j hi hj
  rw [Mat.add_get (A := t.val.map (fun x => if 0 < x then x else 0)) (B := (t.val.map (fun x => if 0 < x then x else 0)).sub t.val) rfl rfl,
    Mat.sub_get (A := t.val.map (fun x => if 0 < x then x else 0)) (B := t.val) rfl rfl, Mat.map_get_lt _ _ hi hj]
  exact abs_eq_parts _

/-- The pair of parts made from the first triple. -/
theorem nndsvdFirst_ok {m u v : TMat ℝ} {n : ℕ} {s : Arr ℝ} (hr : 0 < m.nr) (hc : 0 < m.nc) (hn : 0 < n)
    (h : SvdOut m n u s v) : ∃ w hh : Mat ℝ, nndsvdFirst u s ⟨v.ty, v.val.transpose⟩ = .ok (⟨m.ty, w⟩, ⟨m.ty, hh⟩) ∧
      w.nr = m.nr ∧ w.nc = 1 ∧ hh.nr = 1 ∧ hh.nc = m.nc ∧
      (∀ i < m.nr, w.get i 0 = Real.sqrt (s.data.getD 0 0) * |u.val.get i 0|) ∧
      (∀ j < m.nc, hh.get 0 j = Real.sqrt (s.data.getD 0 0) * |v.val.get j 0|) := by
  have hr' : 0 < u.nr := by rw [h.unr]; exact hr
  have e1 := getCols_one (t := u) (i := 0) (by rw [h.unc]; exact hn) hr'
  have e2 : (⟨v.ty, v.val.transpose⟩ : TMat ℝ).getRow 0 = .ok ⟨v.ty, v.val.transpose.row 0⟩ :=
    getRow_nat (i := 0) (t := ⟨v.ty, v.val.transpose⟩) (by show 0 < v.nc; rw [h.vnc]; exact hn)
      (by show 0 < v.nr; rw [h.vnr]; exact hc)
  obtain ⟨U, u1, u2, u3, u4⟩ := matrixAbs_ok (t := ⟨u.ty, u.val.selCols [0]⟩) hr' (by simp [TMat.nc])
  obtain ⟨V, v1, v2, v3, v4⟩ := matrixAbs_ok (t := ⟨v.ty, v.val.transpose.row 0⟩) (by simp [TMat.nr, Mat.row])
    (by show 0 < v.nr; rw [h.vnr]; exact hc)
  have u2' : U.nr = m.nr := u2.trans h.unr
  have u3' : U.nc = 1 := u3.trans (by simp [TMat.nc])
  have v2' : V.nr = 1 := v2.trans (by simp [TMat.nr, Mat.row])
  have v3' : V.nc = m.nc := v3.trans h.vnr
  refine ⟨U.smul (Real.sqrt (s.data.getD 0 0)), V.smul (Real.sqrt (s.data.getD 0 0)), ?_, u2', u3', v2', v3', ?_, ?_⟩
  · unfold nndsvdFirst
    rw [arrGet_ok (by rw [h.slen]; exact hn), ok_bind, pySqrt_ok (h.spos 0 hn).le, ok_bind, e1, ok_bind, u1, ok_bind,
      TMat.mulScalar_ok _ (by show 0 < U.nr; omega) (by show 0 < U.nc; omega), ok_bind, e2, ok_bind, v1, ok_bind,
      TMat.mulScalar_ok _ (by show 0 < V.nr; omega) (by show 0 < V.nc; omega), ok_bind, h.uty, h.vty]
    rfl
  · intro i hi
    rw [Mat.smul_get, u4 i 0 (by show i < u.nr; rw [h.unr]; exact hi) (by simp [TMat.nc])]
    show _ * |(u.val.selCols [0]).get i 0| = _
    rw [selCols_one_get]
  · intro j hj
    rw [Mat.smul_get, v4 0 j (by simp [TMat.nr, Mat.row]) (by show j < v.nr; rw [h.vnr]; exact hj)]
    rfl

theorem nndsvdScale_ok {si term : ℝ} {part : TMat ℝ} {nn : ℝ} (h0 : 0 ≤ si * term) (hn : nn ≠ 0) (hr : 0 < part.nr)
    (hc : 0 < part.nc) : nndsvdScale si term part nn =
      .ok ⟨part.ty, (part.val.smul (Real.sqrt (si * term))).smul nn⁻¹⟩ := by
  unfold nndsvdScale
  rw [pySqrt_ok h0, ok_bind, TMat.mulScalar_ok _ hr hc, ok_bind]
  unfold TMat.divScalar
  rw [if_neg hn]
  exact TMat.wrap_ok_pos hr hc

/-- One of the two sections of a triple, as a pair of functions, with the scaling of the code. -/
theorem nndsvd_product {s p a c x y : ℝ} (hp : p = a * c) (hs : 0 ≤ s) (ha : 0 < a) (hc : 0 < c) :
    a⁻¹ * (Real.sqrt (s * p) * x) * (c⁻¹ * (Real.sqrt (s * p) * y)) = s * (x * y) := by
  have h := Real.mul_self_sqrt (mul_nonneg hs (hp ▸ mul_nonneg ha.le hc.le : 0 ≤ p))
  calc a⁻¹ * (Real.sqrt (s * p) * x) * (c⁻¹ * (Real.sqrt (s * p) * y))
      = (Real.sqrt (s * p) * Real.sqrt (s * p)) * (a⁻¹ * c⁻¹) * (x * y) := by ring
    _ = s * (a * c) * (a⁻¹ * c⁻¹) * (x * y) := by rw [h, hp]
    _ = s * (a * a⁻¹) * (c * c⁻¹) * (x * y) := by ring
    _ = s * (x * y) := by rw [mul_inv_cancel₀ ha.ne', mul_inv_cancel₀ hc.ne', mul_one, mul_one]

/-- The larger of the two sections of the `i`-th triple, entry `(r, c)` of the rank-one matrix. -/
def sectionEntry (m u : TMat ℝ) (v : TMat ℝ) (i r c : ℕ) : ℝ :=
  if len2 m.nr (negPart' ∘ fun a => u.val.get a i) * len2 m.nc (negPart' ∘ fun a => v.val.get a i) ≤
      len2 m.nr (posPart' ∘ fun a => u.val.get a i) * len2 m.nc (posPart' ∘ fun a => v.val.get a i) then
    posPart' (u.val.get r i) * posPart' (v.val.get c i)
  else negPart' (u.val.get r i) * negPart' (v.val.get c i)

theorem nndsvdStep_ok {m u v : TMat ℝ} {n : ℕ} {s : Arr ℝ} (hm : NonNegative m.val) (hr : 0 < m.nr) (hc : 0 < m.nc)
    (h : SvdOut m n u s v) {i : ℕ} (hi : i < n) :
    ∃ w hh : Mat ℝ, nndsvdStep u s ⟨v.ty, v.val.transpose⟩ i = .ok (⟨m.ty, w⟩, ⟨m.ty, hh⟩) ∧
      w.nr = m.nr ∧ w.nc = 1 ∧ hh.nr = 1 ∧ hh.nc = m.nc ∧ (∀ r < m.nr, 0 ≤ w.get r 0) ∧ (∀ c < m.nc, 0 ≤ hh.get 0 c) ∧
      ∀ r < m.nr, ∀ c < m.nc, w.get r 0 * hh.get 0 c = s.data.getD i 0 * sectionEntry m u v i r c := by
  have hr' : 0 < u.nr := by rw [h.unr]; exact hr
  have hvr : 0 < v.nr := by rw [h.vnr]; exact hc
  have hsp := h.spos i hi
  set x : ℕ → ℝ := fun a => u.val.get a i with hx
  set y : ℕ → ℝ := fun a => v.val.get a i with hy
  obtain ⟨hP, hN⟩ := section_pos m.val hm x y _ hsp (h.uunit i hi) (h.vunit i hi) (fun a ha => h.triple a i ha hi)
  have e1 := getCols_one (t := u) (i := i) (by rw [h.unc]; exact hi) hr'
  have e2 : (⟨v.ty, v.val.transpose⟩ : TMat ℝ).getRow i = .ok ⟨v.ty, v.val.transpose.row i⟩ :=
    getRow_nat (i := i) (t := ⟨v.ty, v.val.transpose⟩) (by show i < v.nc; rw [h.vnc]; exact hi) hvr
  set uu : TMat ℝ := ⟨u.ty, u.val.selCols [i]⟩ with huu
  set vv : TMat ℝ := ⟨v.ty, v.val.transpose.row i⟩ with hvv
  have un : uu.nr = m.nr := h.unr
  have uc : uu.nc = 1 := by simp [huu, TMat.nc]
  have vn : vv.nr = 1 := by simp [hvv, TMat.nr, Mat.row]
  have vc : vv.nc = m.nc := h.vnr
  have e3 := TMat.getNonNegative_ok (s := uu) (by omega) (by omega)
  have e4 := TMat.getNonNegative_ok (s := vv) (by omega) (by omega)
  set uup : TMat ℝ := ⟨uu.ty, uu.val.map (fun x => if 0 < x then x else 0)⟩ with huup
  set vvp : TMat ℝ := ⟨vv.ty, vv.val.map (fun x => if 0 < x then x else 0)⟩ with hvvp
  have e5 := TMat.sub_ok (s := uup) (t := uu) rfl rfl rfl (by show 0 < uu.nr; omega) (by show 0 < uu.nc; omega)
  have e6 := TMat.sub_ok (s := vvp) (t := vv) rfl rfl rfl (by show 0 < vv.nr; omega) (by show 0 < vv.nc; omega)
  set uun : TMat ℝ := ⟨uup.ty, uup.val.sub uu.val⟩ with huun
  set vvn : TMat ℝ := ⟨vvp.ty, vvp.val.sub vv.val⟩ with hvvn
  have g1 : ∀ a, a < m.nr → uup.val.get a 0 = posPart' (x a) := fun a ha => by
    show (uu.val.map (fun x => if 0 < x then x else 0)).get a 0 = _
    rw [Mat.map_get_lt _ _ (show a < uu.nr by omega) (show 0 < uu.nc by omega)]
    show posPart' ((u.val.selCols [i]).get a 0) = _
    rw [selCols_one_get]
  have g2 : ∀ a, a < m.nr → uun.val.get a 0 = negPart' (x a) := fun a ha => by
    rw [huun]
    show (uup.val.sub uu.val).get a 0 = _
    rw [Mat.sub_get (A := uup.val) (B := uu.val) rfl rfl, g1 a ha]
    show _ - (u.val.selCols [i]).get a 0 = _
    rw [selCols_one_get]; rfl
  have g3 : ∀ a, a < m.nc → vvp.val.get 0 a = posPart' (y a) := fun a ha => by
    show (vv.val.map (fun x => if 0 < x then x else 0)).get 0 a = _
    rw [Mat.map_get_lt _ _ (show 0 < vv.nr by omega) (show a < vv.nc by omega)]
    rfl
  have g4 : ∀ a, a < m.nc → vvn.val.get 0 a = negPart' (y a) := fun a ha => by
    rw [hvvn]
    show (vvp.val.sub vv.val).get 0 a = _
    rw [Mat.sub_get (A := vvp.val) (B := vv.val) rfl rfl, g3 a ha]
    rfl
  have hcol : ∀ (t : TMat ℝ) (f : ℝ → ℝ), t.nr = m.nr → t.nc = 1 → (∀ a, a < m.nr → t.val.get a 0 = f (x a)) →
      t.norm = len2 m.nr (f ∘ x) := fun t f t1 t2 t3 => by
    rw [norm_col t2, t1]
    unfold len2
    congr 1
    exact Finset.sum_congr rfl (fun a ha => by simp only [t3 a (Finset.mem_range.1 ha), Function.comp])
  have hrow : ∀ (t : TMat ℝ) (f : ℝ → ℝ), t.nr = 1 → t.nc = m.nc → (∀ a, a < m.nc → t.val.get 0 a = f (y a)) →
      t.norm = len2 m.nc (f ∘ y) := fun t f t1 t2 t3 => by
    rw [norm_row1 t1, t2]
    unfold len2
    congr 1
    exact Finset.sum_congr rfl (fun a ha => by simp only [t3 a (Finset.mem_range.1 ha), Function.comp])
  have n1 := hcol uup posPart' un uc g1
  have n2 := hcol uun negPart' un uc g2
  have n3 := hrow vvp posPart' vn vc g3
  have n4 := hrow vvn negPart' vn vc g4
  have hstep : nndsvdStep u s ⟨v.ty, v.val.transpose⟩ i = nndsvdPick (s.data.getD i 0) uup uun vvp vvn := by
    unfold nndsvdStep
    rw [e1, ok_bind, e2, ok_bind, e3, ok_bind, e5, ok_bind, e4, ok_bind, e6, ok_bind,
      arrGet_ok (by rw [h.slen]; exact hi), ok_bind]
  have tu : u.ty = m.ty := h.uty
  have tv : v.ty = m.ty := h.vty
  rw [hstep]
  unfold nndsvdPick
  rw [n1, n2, n3, n4]
  change _ at hP
  by_cases hb : len2 m.nr (negPart' ∘ x) * len2 m.nc (negPart' ∘ y) ≤ len2 m.nr (posPart' ∘ x) * len2 m.nc (posPart' ∘ y)
  · obtain ⟨pa, pc⟩ := hP hb
    have h0 : 0 ≤ s.data.getD i 0 * (len2 m.nr (posPart' ∘ x) * len2 m.nc (posPart' ∘ y)) :=
      mul_nonneg hsp.le (mul_nonneg (len2_nonneg _ _) (len2_nonneg _ _))
    rw [if_pos hb, nndsvdScale_ok (part := uup) h0 pa.ne' (by show 0 < uu.nr; omega) (by show 0 < uu.nc; omega), ok_bind,
      nndsvdScale_ok (part := vvp) h0 pc.ne' (by show 0 < vv.nr; omega) (by show 0 < vv.nc; omega), ok_bind]
    rw [show uup.ty = m.ty from tu, show vvp.ty = m.ty from tv]
    refine ⟨_, _, rfl, un, uc, vn, vc, ?_, ?_, ?_⟩
    · intro r hr
      simp only [Mat.smul_get, g1 r hr]
      exact mul_nonneg (inv_nonneg.2 pa.le) (mul_nonneg (Real.sqrt_nonneg _) (posPart'_nonneg _))
    · intro c hc
      simp only [Mat.smul_get, g3 c hc]
      exact mul_nonneg (inv_nonneg.2 pc.le) (mul_nonneg (Real.sqrt_nonneg _) (posPart'_nonneg _))
    · intro r hr c hc
      simp only [Mat.smul_get, g1 r hr, g3 c hc]
      rw [nndsvd_product rfl hsp.le pa pc]
      unfold sectionEntry
      rw [if_pos hb]
  · obtain ⟨pa, pc⟩ := hN hb
    have h0 : 0 ≤ s.data.getD i 0 * (len2 m.nr (negPart' ∘ x) * len2 m.nc (negPart' ∘ y)) :=
      mul_nonneg hsp.le (mul_nonneg (len2_nonneg _ _) (len2_nonneg _ _))
    rw [if_neg hb, nndsvdScale_ok (part := uun) h0 pa.ne' (by show 0 < uu.nr; omega) (by show 0 < uu.nc; omega), ok_bind,
      nndsvdScale_ok (part := vvn) h0 pc.ne' (by show 0 < vv.nr; omega) (by show 0 < vv.nc; omega), ok_bind]
    rw [show uun.ty = m.ty from tu, show vvn.ty = m.ty from tv]
    refine ⟨_, _, rfl, un, uc, vn, vc, ?_, ?_, ?_⟩
    · intro r hr
      simp only [Mat.smul_get, g2 r hr]
      exact mul_nonneg (inv_nonneg.2 pa.le) (mul_nonneg (Real.sqrt_nonneg _) (negPart'_nonneg _))
    · intro c hc
      simp only [Mat.smul_get, g4 c hc]
      exact mul_nonneg (inv_nonneg.2 pc.le) (mul_nonneg (Real.sqrt_nonneg _) (negPart'_nonneg _))
    · intro r hr c hc
      simp only [Mat.smul_get, g2 r hr, g4 c hc]
      rw [nndsvd_product rfl hsp.le pa pc]
      unfold sectionEntry
      rw [if_neg hb]

end
end Dissect
