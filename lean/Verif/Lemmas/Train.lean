import Verif.Lemmas.Composition
import Verif.Lemmas.Regression

/-! # Lemmas about training composition models -/

namespace Dissect
open Finset
noncomputable section
variable {κ : Type} [DecidableEq κ]

theorem Space.vecOf_word {s : Space κ} (h : s.WF) {i : ℕ} {w : κ} (hw : s.HasWord i w) :
    s.vecOf w = s.mat.val.get i := by
  have hlt : i < s.id2row.length := by
    by_contra hc
    unfold Space.HasWord at hw
    rw [List.getElem?_eq_none (by omega)] at hw
    cases hw
  unfold Space.vecOf
  congr 1
  unfold Space.HasWord at hw
  rw [List.getElem?_eq_getElem hlt] at hw
  injection hw with hw
  rw [← hw]
  exact h.rows.nodup.idxOf_getElem i hlt

theorem Space.hasWord_idxOf {s : Space κ} {w : κ} (hw : w ∈ s.id2row) : s.HasWord (s.id2row.idxOf w) w := by
  unfold Space.HasWord
  rw [List.getElem?_eq_getElem (List.idxOf_lt_length_of_mem hw)]
  simp

theorem sum_range_list {α : Type} (l : List α) (f : ℕ → ℝ) (g : α → ℝ) (h : ∀ k t, l[k]? = some t → f k = g t) :
    ∑ k ∈ range l.length, f k = (l.map g).sum := by
  induction l generalizing f with
  | nil => simp
  | cons x xs ih =>
    rw [List.length_cons, Finset.sum_range_succ', List.map_cons, List.sum_cons, h 0 x rfl,
      ih (fun k => f (k + 1)) (fun k t hk => h (k + 1) t (by simpa using hk)), add_comm]

/-- The rows of known samples, in one class. -/
theorem sampleMats_ok {s1 s2 p : Space κ} (h1 : s1.WF) (h2 : s2.WF) (hp : p.WF) (n1 : 0 < s1.mat.nc)
    (n2 : 0 < s2.mat.nc) (n3 : 0 < p.mat.nc) (l : List (Triple κ)) (hl : l ≠ [])
    (hk : ∀ t ∈ l, t.1 ∈ s1.id2row ∧ t.2.1 ∈ s2.id2row ∧ t.2.2 ∈ p.id2row) :
    ∃ ty A B C, sampleMats s1 s2 p (l.map (·.1)) (l.map (·.2.1)) (l.map (·.2.2)) =
        .ok (⟨ty, A⟩, ⟨ty, B⟩, ⟨ty, C⟩) ∧
      A.nr = l.length ∧ B.nr = l.length ∧ C.nr = l.length ∧
      A.nc = s1.mat.nc ∧ B.nc = s2.mat.nc ∧ C.nc = p.mat.nc ∧
      ∀ k t, l[k]? = some t → A.get k = s1.vecOf t.1 ∧ B.get k = s2.vecOf t.2.1 ∧ C.get k = p.vecOf t.2.2 := by
  have hpos : 0 < l.length := List.length_pos_iff.2 hl
  obtain ⟨r1, e1, _, hr1, hc1, g1⟩ := C03_get_rows s1 h1 n1 (l.map (·.1)) (by simpa using hl)
    (by intro w hw; obtain ⟨t, ht, rfl⟩ := List.mem_map.1 hw; exact (hk t ht).1)
  obtain ⟨r2, e2, _, hr2, hc2, g2⟩ := C03_get_rows s2 h2 n2 (l.map (·.2.1)) (by simpa using hl)
    (by intro w hw; obtain ⟨t, ht, rfl⟩ := List.mem_map.1 hw; exact (hk t ht).2.1)
  obtain ⟨r3, e3, _, hr3, hc3, g3⟩ := C03_get_rows p hp n3 (l.map (·.2.2)) (by simpa using hl)
    (by intro w hw; obtain ⟨t, ht, rfl⟩ := List.mem_map.1 hw; exact (hk t ht).2.2)
  rw [List.length_map] at hr1 hr2 hr3
  obtain ⟨ty, hty, _⟩ := resolve_three (a := r1) (b := r2) (c := r3) ⟨by omega, by omega⟩ ⟨by omega, by omega⟩
    ⟨by omega, by omega⟩ .dense
  refine ⟨ty, r1.val, r2.val, r3.val, ?_, hr1, hr2, hr3, hc1, hc2, hc3, ?_⟩
  · unfold sampleMats
    simp only [e1, e2, e3, ok_bind, hty]
    rfl
  · intro k t hkt
    have hm := hk t (List.mem_of_getElem? hkt)
    refine ⟨?_, ?_, ?_⟩
    · funext j
      rw [g1 k t.1 _ (by rw [List.getElem?_map, hkt]; rfl) (Space.hasWord_idxOf hm.1)]
      rfl
    · funext j
      rw [g2 k t.2.1 _ (by rw [List.getElem?_map, hkt]; rfl) (Space.hasWord_idxOf hm.2.1)]
      rfl
    · funext j
      rw [g3 k t.2.2 _ (by rw [List.getElem?_map, hkt]; rfl) (Space.hasWord_idxOf hm.2.2)]
      rfl

/-! ### Weighted additive -/

/-- The five sums over a list of samples. -/
def dotsOf (s1 s2 p : Space κ) (n : ℕ) (l : List (Triple κ)) : Dots :=
  ⟨(l.map (fun t => dot n (s1.vecOf t.1) (s2.vecOf t.2.1))).sum,
   (l.map (fun t => dot n (s1.vecOf t.1) (p.vecOf t.2.2))).sum,
   (l.map (fun t => dot n (s2.vecOf t.2.1) (p.vecOf t.2.2))).sum,
   (l.map (fun t => dot n (s1.vecOf t.1) (s1.vecOf t.1))).sum,
   (l.map (fun t => dot n (s2.vecOf t.2.1) (s2.vecOf t.2.1))).sum⟩

theorem dotsOf_append (s1 s2 p : Space κ) (n : ℕ) (l l' : List (Triple κ)) :
    (dotsOf s1 s2 p n l).add (dotsOf s1 s2 p n l') = dotsOf s1 s2 p n (l ++ l') := by
  simp [dotsOf, Dots.add]

theorem total_had (A B : Mat ℝ) (hr : A.nr = B.nr) {α : Type} (l : List α) (hl : A.nr = l.length)
    (f g : α → ℕ → ℝ) (hf : ∀ k t, l[k]? = some t → A.get k = f t ∧ B.get k = g t) :
    (A.had B).total = (l.map (fun t => dot A.nc (f t) (g t))).sum := by
  unfold Mat.total
  rw [Mat.had_nr, hl]
  refine sum_range_list l _ _ (fun k t hk => ?_)
  obtain ⟨a, b⟩ := hf k t hk
  simp only [Mat.had_get, Mat.had_nc, a, b]
  rfl

theorem norm_sq (ty : MTy) (A : Mat ℝ) : (⟨ty, A⟩ : TMat ℝ).norm ^ 2 = (A.had A).total := by
  unfold TMat.norm
  rw [Real.sq_sqrt (Finset.sum_nonneg fun i _ => Finset.sum_nonneg fun j _ => sq_nonneg _)]
  unfold Mat.total
  simp only [Mat.had_get, Mat.had_nr, Mat.had_nc, sq]

theorem train1_ok {s1 s2 p : Space κ} {n : ℕ} {ty : MTy} {A B C : Mat ℝ} {l : List (Triple κ)} (hl : l ≠ []) (hn : 0 < n)
    (a1 : A.nr = l.length) (b1 : B.nr = l.length) (c1 : C.nr = l.length) (a2 : A.nc = n) (b2 : B.nc = n) (c2 : C.nc = n)
    (hg : ∀ k t, l[k]? = some t → A.get k = s1.vecOf t.1 ∧ B.get k = s2.vecOf t.2.1 ∧ C.get k = p.vecOf t.2.2) :
    train1 ⟨ty, A⟩ ⟨ty, B⟩ ⟨ty, C⟩ = .ok (dotsOf s1 s2 p n l) := by
  have hpos : 0 < l.length := List.length_pos_iff.2 hl
  unfold train1
  rw [TMat.multiply_ok (s := ⟨ty, A⟩) (t := ⟨ty, B⟩) rfl (a1.trans b1.symm) (a2.trans b2.symm) (show 0 < A.nr by omega)
    (show 0 < A.nc by omega),
    TMat.multiply_ok (s := ⟨ty, A⟩) (t := ⟨ty, C⟩) rfl (a1.trans c1.symm) (a2.trans c2.symm) (show 0 < A.nr by omega)
    (show 0 < A.nc by omega),
    TMat.multiply_ok (s := ⟨ty, B⟩) (t := ⟨ty, C⟩) rfl (b1.trans c1.symm) (b2.trans c2.symm) (show 0 < B.nr by omega)
    (show 0 < B.nc by omega)]
  simp only [ok_bind, pure_eq_ok, norm_sq, TMat.sumAll]
  unfold dotsOf
  rw [total_had A B (by omega) l a1 (fun t => s1.vecOf t.1) (fun t => s2.vecOf t.2.1)
      (fun k t hk => ⟨(hg k t hk).1, (hg k t hk).2.1⟩),
    total_had A C (by omega) l a1 (fun t => s1.vecOf t.1) (fun t => p.vecOf t.2.2)
      (fun k t hk => ⟨(hg k t hk).1, (hg k t hk).2.2⟩),
    total_had B C (by omega) l b1 (fun t => s2.vecOf t.2.1) (fun t => p.vecOf t.2.2)
      (fun k t hk => ⟨(hg k t hk).2.1, (hg k t hk).2.2⟩),
    total_had A A (by omega) l a1 (fun t => s1.vecOf t.1) (fun t => s1.vecOf t.1)
      (fun k t hk => ⟨(hg k t hk).1, (hg k t hk).1⟩),
    total_had B B (by omega) l b1 (fun t => s2.vecOf t.2.1) (fun t => s2.vecOf t.2.1)
      (fun k t hk => ⟨(hg k t hk).2.1, (hg k t hk).2.1⟩), a2, b2]

theorem slice_map {α β : Type} (f : α → β) (l : List α) (b e : ℕ) :
    ((l.map f).take e).drop b = ((l.take e).drop b).map f := by
  rw [← List.map_take, List.map_drop]

theorem chunkLoop_ok {s1 s2 p : Space κ} (h1 : s1.WF) (h2 : s2.WF) (hp : p.WF) {n : ℕ} (hn : 0 < n)
    (n1 : s1.mat.nc = n) (n2 : s2.mat.nc = n) (n3 : p.mat.nc = n) (v : List (Triple κ))
    (hk : ∀ t ∈ v, t.1 ∈ s1.id2row ∧ t.2.1 ∈ s2.id2row ∧ t.2.2 ∈ p.id2row) (size : ℕ) (hs : 0 < size) (m : ℕ) :
    ∀ i, (i + m) * size ≤ v.length →
      chunkLoop s1 s2 p (v.map (·.1)) (v.map (·.2.1)) (v.map (·.2.2)) size (dotsOf s1 s2 p n (v.take (i * size)))
        (List.range' i m) = .ok (dotsOf s1 s2 p n (v.take ((i + m) * size))) := by
  induction m with
  | zero => intro i _; rfl
  | succ m ih =>
    intro i hle
    rw [List.range'_succ]
    unfold chunkLoop
    have hb : (i + 1) * size ≤ v.length := le_trans (Nat.mul_le_mul_right _ (by omega)) hle
    have hmin : min ((i + 1) * size) (v.map (·.1)).length = (i + 1) * size := by
      rw [List.length_map]; exact Nat.min_eq_left hb
    have hlen : ((v.take ((i + 1) * size)).drop (i * size)).length = size := by
      rw [List.length_drop, List.length_take, Nat.min_eq_left hb, Nat.add_mul]
      omega
    have hne : (v.take ((i + 1) * size)).drop (i * size) ≠ [] := by
      intro h
      rw [h] at hlen
      simp at hlen
      omega
    obtain ⟨ty, A, B, C, hS, a1, b1, c1, a2, b2, c2, hg⟩ := sampleMats_ok h1 h2 hp (by omega) (by omega) (by omega)
      ((v.take ((i + 1) * size)).drop (i * size)) hne
      (fun t ht => hk t (List.mem_of_mem_take (List.mem_of_mem_drop ht)))
    simp only [slice, hmin, slice_map, hS, ok_bind]
    rw [train1_ok hne hn a1 b1 c1 (a2.trans n1) (b2.trans n2) (c2.trans n3) hg]
    simp only [ok_bind]
    rw [dotsOf_append]
    have happ : v.take (i * size) ++ (v.take ((i + 1) * size)).drop (i * size) = v.take ((i + 1) * size) := by
      conv_rhs => rw [← List.take_append_drop (i * size) (v.take ((i + 1) * size))]
      rw [List.take_take, Nat.min_eq_left (Nat.mul_le_mul_right _ (by omega))]
    rw [happ, ih (i + 1) (by rw [show i + 1 + m = i + (m + 1) by omega]; exact hle)]
    rw [show i + 1 + m = i + (m + 1) by omega]

/-- Two unknowns: pseudo-inverse solution of the normal equations minimises the squared error. -/
theorem two_param_min (S : List (ℝ × ℝ × ℝ)) (P : Mat ℝ) (n1 n2 d r1 r2 : ℝ)
    (e1 : n1 = (S.map (fun t => t.1 * t.1)).sum) (e2 : n2 = (S.map (fun t => t.2.1 * t.2.1)).sum)
    (e3 : d = (S.map (fun t => t.1 * t.2.1)).sum) (e4 : r1 = (S.map (fun t => t.1 * t.2.2)).sum)
    (e5 : r2 = (S.map (fun t => t.2.1 * t.2.2)).sum)
    (hP : IsPinv (Mat.of 2 2 (fun i j => if i = 0 ∧ j = 0 then n1 else if i = 1 ∧ j = 1 then n2 else d)) P) (a b : ℝ) :
    (S.map (fun t => ((P.get 0 0 * r1 + P.get 0 1 * r2) * t.1 + (P.get 1 0 * r1 + P.get 1 1 * r2) * t.2.1 - t.2.2) ^ 2)).sum
      ≤ (S.map (fun t => (a * t.1 + b * t.2.1 - t.2.2) ^ 2)).sum := by
  set pp := (S.map (fun t => t.2.2 * t.2.2)).sum with hpp
  have hE : ∀ x y : ℝ, (S.map (fun t => (x * t.1 + y * t.2.1 - t.2.2) ^ 2)).sum =
      x ^ 2 * n1 + 2 * x * y * d + y ^ 2 * n2 - 2 * x * r1 - 2 * y * r2 + pp := by
    intro x y
    rw [e1, e2, e3, e4, e5, hpp]
    clear hP e1 e2 e3 e4 e5 hpp pp
    induction S with
    | nil => simp
    | cons t S ih => simp only [List.map_cons, List.sum_cons, ih]; ring
  have hQ : ∀ x y : ℝ, (S.map (fun t => (x * t.1 + y * t.2.1) ^ 2)).sum = x ^ 2 * n1 + 2 * x * y * d + y ^ 2 * n2 := by
    intro x y
    rw [e1, e2, e3]
    clear hP hE e1 e2 e3 e4 e5 hpp pp
    induction S with
    | nil => simp
    | cons t S ih => simp only [List.map_cons, List.sum_cons, ih]; ring
  have hR : ∀ x y : ℝ, (S.map (fun t => (x * t.1 + y * t.2.1) * t.2.2)).sum = x * r1 + y * r2 := by
    intro x y
    rw [e4, e5]
    clear hP hE hQ e1 e2 e3 e4 e5 hpp pp
    induction S with
    | nil => simp
    | cons t S ih => simp only [List.map_cons, List.sum_cons, ih]; ring
  have hker : ∀ x y : ℝ, n1 * x + d * y = 0 → d * x + n2 * y = 0 → x * r1 + y * r2 = 0 := by
    intro x y hx hy
    have hz : (S.map (fun t => (x * t.1 + y * t.2.1) ^ 2)).sum = 0 := by
      rw [hQ]
      linear_combination x * hx + y * hy
    have hall : ∀ t ∈ S, x * t.1 + y * t.2.1 = 0 := by
      clear hP hE hQ hR e1 e2 e3 e4 e5 hpp
      induction S with
      | nil => simp
      | cons t S ih =>
        simp only [List.map_cons, List.sum_cons] at hz
        have h2 : 0 ≤ (S.map (fun t => (x * t.1 + y * t.2.1) ^ 2)).sum :=
          List.sum_nonneg (by intro z hz; obtain ⟨u, _, rfl⟩ := List.mem_map.1 hz; exact sq_nonneg _)
        have h1 := sq_nonneg (x * t.1 + y * t.2.1)
        intro u hu
        rcases List.mem_cons.1 hu with rfl | hu
        · exact pow_eq_zero_iff (two_ne_zero) |>.1 (by linarith)
        · exact ih (by linarith) u hu
    rw [← hR]
    have : S.map (fun t => (x * t.1 + y * t.2.1) * t.2.2) = S.map (fun _ => 0) :=
      List.map_congr_left (fun t ht => by rw [hall t ht, zero_mul])
    rw [this]
    simp
  set G := Mat.of 2 2 (fun i j => if i = 0 ∧ j = 0 then n1 else if i = 1 ∧ j = 1 then n2 else d) with hG
  have G00 : G.get 0 0 = n1 := rfl
  have G01 : G.get 0 1 = d := rfl
  have G10 : G.get 1 0 = d := rfl
  have G11 : G.get 1 1 = n2 := rfl
  have Pn : P.nr = 2 := hP.nr
  have Pc : P.nc = 2 := hP.nc
  have hGP : ∀ i j, (G.mul P).get i j = G.get i 0 * P.get 0 j + G.get i 1 * P.get 1 j := by
    intro i j
    simp only [Mat.mul_get]
    rw [show G.nc = 2 from rfl, Finset.sum_range_succ, Finset.sum_range_one]
  have hGPG : ∀ i j, ((G.mul P).mul G).get i j = (G.mul P).get i 0 * G.get 0 j + (G.mul P).get i 1 * G.get 1 j := by
    intro i j
    rw [Mat.mul_get (G.mul P) G, Mat.mul_nc, Pc, Finset.sum_range_succ, Finset.sum_range_one]
  have one : ∀ i j, (G.mul P).get i 0 * G.get 0 j + (G.mul P).get i 1 * G.get 1 j = G.get i j := by
    intro i j
    rw [← hGPG, hP.one]
  have three : (G.mul P).get 0 1 = (G.mul P).get 1 0 := by
    have := congrArg (fun M => M.get 1 0) hP.three
    simpa using this
  -- the kernel vectors are the columns of `1 - G P`
  have c00 := one 0 0
  have c01 := one 0 1
  have c10 := one 1 0
  have c11 := one 1 1
  rw [G00, G10] at c00
  rw [G01, G11] at c01
  rw [G00, G10] at c10
  rw [G01, G11] at c11
  have k0 := hker (1 - (G.mul P).get 0 0) (-(G.mul P).get 0 1) (by linear_combination -c00) (by linear_combination -c01)
  have k1 := hker (-(G.mul P).get 1 0) (1 - (G.mul P).get 1 1) (by linear_combination -c10) (by linear_combination -c11)
  rw [hGP, hGP, G00, G01] at k0
  rw [hGP, hGP, G10, G11] at k1
  set x := P.get 0 0 * r1 + P.get 0 1 * r2 with hx
  set y := P.get 1 0 * r1 + P.get 1 1 * r2 with hy
  have N1 : n1 * x + d * y = r1 := by rw [hx, hy]; linear_combination -k0
  have N2 : d * x + n2 * y = r2 := by rw [hx, hy]; linear_combination -k1
  rw [hE, hE]
  have hnn : 0 ≤ (a - x) ^ 2 * n1 + 2 * (a - x) * (b - y) * d + (b - y) ^ 2 * n2 := by
    rw [← hQ]
    exact List.sum_nonneg (by intro z hz; obtain ⟨u, _, rfl⟩ := List.mem_map.1 hz; exact sq_nonneg _)
  linear_combination hnn - 2 * (a - x) * N1 - 2 * (b - y) * N2

/-- The numbers occurring in a list of samples. -/
def flatSamples (s1 s2 p : Space κ) (n : ℕ) (l : List (Triple κ)) : List (ℝ × ℝ × ℝ) :=
  l.flatMap (fun t => (List.range n).map (fun j => (s1.vecOf t.1 j, s2.vecOf t.2.1 j, p.vecOf t.2.2 j)))

theorem flatSamples_sum (s1 s2 p : Space κ) (n : ℕ) (l : List (Triple κ)) (f : ℝ → ℝ → ℝ → ℝ) :
    ((flatSamples s1 s2 p n l).map (fun t => f t.1 t.2.1 t.2.2)).sum =
      (l.map (fun t => ∑ j ∈ range n, f (s1.vecOf t.1 j) (s2.vecOf t.2.1 j) (p.vecOf t.2.2 j))).sum := by
  induction l with
  | nil => rfl
  | cons t l ih =>
    simp only [flatSamples, List.flatMap_cons, List.map_append, List.sum_append, List.map_cons, List.sum_cons] at ih ⊢
    rw [ih]
    congr 1
    rw [List.map_map, ← List.sum_toFinset]
    · rw [List.toFinset_range]; rfl
    · exact List.nodup_range

end
end Dissect
