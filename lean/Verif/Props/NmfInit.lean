import Verif.Lemmas.NmfInit
import Verif.Spec.NmfInit

/-! # The other initialisations of NMF (C96) -/

namespace Dissect
open Finset
noncomputable section

/-- One element of the lists `w`, `h` built by the loop. -/
structure PairOk (m u : TMat ℝ) (s : List ℝ) (v : TMat ℝ) (i : ℕ) (e : TMat ℝ × TMat ℝ) : Prop where
  wt : e.1.ty = m.ty
  wr : e.1.nr = m.nr
  wc : e.1.nc = 1
  ht : e.2.ty = m.ty
  hr : e.2.nr = 1
  hc : e.2.nc = m.nc
  wpos : ∀ r < m.nr, 0 ≤ e.1.val.get r 0
  hpos : ∀ c < m.nc, 0 ≤ e.2.val.get 0 c
  prod : ∀ r < m.nr, ∀ c < m.nc, e.1.val.get r 0 * e.2.val.get 0 c = nndsvdEntry m.nr m.nc u.val s v.val i r c

theorem sectionEntry_eq (m u v : TMat ℝ) (s : List ℝ) (i r c : ℕ) (hi : i ≠ 0) :
    s.getD i 0 * sectionEntry m u v i r c = nndsvdEntry m.nr m.nc u.val s v.val i r c := by
  have hp : ∀ n (x : ℕ → ℝ), len2 n (posPart' ∘ x) = lenPos n x := fun n x => by
    unfold len2 lenPos; simp only [Function.comp, posPart'_eq_max]
  have hn : ∀ n (x : ℕ → ℝ), len2 n (negPart' ∘ x) = lenNeg n x := fun n x => by
    unfold len2 lenNeg; simp only [Function.comp, negPart'_eq_max]
  unfold sectionEntry nndsvdEntry
  rw [if_neg hi, hp, hp, hn, hn]
  simp only [posPart'_eq_max, negPart'_eq_max]
  split <;> rfl

theorem nndsvdList_ok {m u v : TMat ℝ} {n : ℕ} {s : Arr ℝ} (hm : NonNegative m.val) (hr : 0 < m.nr) (hc : 0 < m.nc)
    (h : SvdOut m n u s v) : ∀ i, i < n → ∃ l, nndsvdList u s ⟨v.ty, v.val.transpose⟩ i = .ok l ∧ l.length = i + 1 ∧
      ∀ k e, l[k]? = some e → PairOk m u s.data v k e
  | 0, hn => by
    obtain ⟨w, hh, h1, h2, h3, h4, h5, h6, h7⟩ := nndsvdFirst_ok hr hc hn h
    refine ⟨[(⟨m.ty, w⟩, ⟨m.ty, hh⟩)], by simp only [nndsvdList, h1, ok_bind]; rfl, rfl, ?_⟩
    intro k e he
    cases k with
    | succ k => simp at he
    | zero =>
      simp only [List.getElem?_cons_zero, Option.some.injEq] at he
      subst he
      refine ⟨rfl, h2, h3, rfl, h4, h5, ?_, ?_, ?_⟩
      · intro r hr
        simp only
        rw [h6 r hr]
        exact mul_nonneg (Real.sqrt_nonneg _) (abs_nonneg _)
      · intro c hc
        simp only
        rw [h7 c hc]
        exact mul_nonneg (Real.sqrt_nonneg _) (abs_nonneg _)
      · intro r hr c hc
        simp only
        rw [h6 r hr, h7 c hc]
        unfold nndsvdEntry
        rw [if_pos rfl]
        have := Real.mul_self_sqrt (h.spos 0 hn).le
        calc Real.sqrt (s.data.getD 0 0) * |u.val.get r 0| * (Real.sqrt (s.data.getD 0 0) * |v.val.get c 0|)
            = (Real.sqrt (s.data.getD 0 0) * Real.sqrt (s.data.getD 0 0)) * (|u.val.get r 0| * |v.val.get c 0|) := by ring
          _ = _ := by rw [this]
  | i + 1, hn => by
    obtain ⟨l, l1, l2, l3⟩ := nndsvdList_ok hm hr hc h i (by omega)
    obtain ⟨w, hh, h1, h2, h3, h4, h5, h6, h7, h8⟩ := nndsvdStep_ok hm hr hc h hn
    refine ⟨l ++ [(⟨m.ty, w⟩, ⟨m.ty, hh⟩)], by simp only [nndsvdList, l1, ok_bind, h1]; rfl, by simp [l2], ?_⟩
    intro k e he
    rcases lt_or_ge k l.length with hk | hk
    · rw [List.getElem?_append_left hk] at he
      exact l3 k e he
    · rw [List.getElem?_append_right hk] at he
      have hk0 : k - l.length = 0 := by
        by_contra hne
        obtain ⟨j, hj⟩ := Nat.exists_eq_succ_of_ne_zero hne
        rw [hj] at he
        simp at he
      rw [hk0] at he
      simp only [List.getElem?_cons_zero, Option.some.injEq] at he
      subst he
      have hki : k = i + 1 := by omega
      subst hki
      exact ⟨rfl, h2, h3, rfl, h4, h5, h6, h7, fun r hr c hc => by
        rw [← sectionEntry_eq m u v s.data (i + 1) r c (by omega)]; exact h8 r hr c hc⟩

theorem removeSmall_ok {t : TMat ℝ} (eps : ℝ) (hr : 0 < t.nr) (hc : 0 < t.nc) :
    ∃ x, t.removeSmallValues eps = .ok x := ⟨_, TMat.wrap_ok_pos hr hc⟩

/-- The initialisation, given what the decomposition returned. -/
theorem nndsvdInit_ok (env : Env) (m : TMat ℝ) (k n : ℕ) (u : TMat ℝ) (s : Arr ℝ) (v : TMat ℝ) (hm : NonNegative m.val)
    (hr : 0 < m.nr) (hc : 0 < m.nc) (hn : 0 < n) (hnk : n ≤ k) (hs : svd env m k = .ok (u, s, v))
    (h : SvdOut m n u s v) : ∃ w hh, nndsvdInit env m k = .ok (w, hh) ∧ NndsvdStart m u s.data v k w hh := by
  obtain ⟨l, l1, l2, l3⟩ := nndsvdList_ok hm hr hc h (n - 1) (by omega)
  have l2' : l.length = n := by omega
  have hne : l ≠ [] := by intro e; rw [e] at l2'; simp at l2'; omega
  have hmem : ∀ e ∈ l, ∃ i, PairOk m u s.data v i e := fun e he => by
    obtain ⟨i, hi⟩ := List.mem_iff_getElem?.1 he
    exact ⟨i, l3 i e hi⟩
  obtain ⟨W, w1, w2, w3, w4⟩ := naryHstack_ok (ty := m.ty) hr (l.map Prod.fst) (by simpa using hne) (by
    intro x hx
    obtain ⟨e, he, rfl⟩ := List.mem_map.1 hx
    obtain ⟨i, hi⟩ := hmem e he
    exact ⟨hi.wt, hi.wr, hi.wc⟩)
  obtain ⟨H, h1, h2, h3, h4⟩ := naryVstack_ok (ty := m.ty) hc (l.map Prod.snd) (by simpa using hne) (by
    intro x hx
    obtain ⟨e, he, rfl⟩ := List.mem_map.1 hx
    obtain ⟨i, hi⟩ := hmem e he
    exact ⟨hi.ht, hi.hc, hi.hr⟩)
  rw [List.length_map, l2'] at w3 h2
  have helem : ∀ i, i < n → ∃ e, l[i]? = some e ∧ PairOk m u s.data v i e ∧ (∀ r, W.get r i = e.1.val.get r 0) ∧
      ∀ c, H.get i c = e.2.val.get 0 c := fun i hi => by
    have hl : i < l.length := by omega
    have he := List.getElem?_eq_getElem hl
    exact ⟨l[i], he, l3 i _ he, fun r => w4 i _ r (by rw [List.getElem?_map, he]; rfl),
      fun c => h4 i _ c (by rw [List.getElem?_map, he]; rfl)⟩
  have hunc := h.unc
  have core : ∀ (w hh : TMat ℝ), w.ty = m.ty → hh.ty = m.ty → w.nr = m.nr → w.nc = k → hh.nr = k → hh.nc = m.nc →
      (∀ r i, i < n → w.val.get r i = W.get r i) → (∀ i c, i < n → hh.val.get i c = H.get i c) →
      (∀ i r, n ≤ i → w.val.get r i = 0) → (∀ i c, n ≤ i → hh.val.get i c = 0) →
      NndsvdStart m u s.data v k w hh := by
    intro w hh a1 a2 a3 a4 a5 a6 a7 a8 a9 a10
    refine ⟨a1, a2, a3, a4, a5, a6, ?_, ?_, ?_, ?_, ?_⟩
    · intro r i hr' hi
      rcases lt_or_ge i n with hlt | hge
      · obtain ⟨e, _, he, g1, _⟩ := helem i hlt
        rw [a7 r i hlt, g1 r]; exact he.wpos r hr'
      · rw [a9 i r hge]
    · intro i c hi hc'
      rcases lt_or_ge i n with hlt | hge
      · obtain ⟨e, _, he, _, g2⟩ := helem i hlt
        rw [a8 i c hlt, g2 c]; exact he.hpos c hc'
      · rw [a10 i c hge]
    · intro i r c hi hr' hc'
      have hlt : i < n := by rw [← hunc]; exact hi
      obtain ⟨e, _, he, g1, g2⟩ := helem i hlt
      rw [a7 r i hlt, a8 i c hlt, g1 r, g2 c]
      exact he.prod r hr' c hc'
    · intro i r hi; exact a9 i r (by rw [← hunc]; exact hi)
    · intro i c hi; exact a10 i c (by rw [← hunc]; exact hi)
  obtain ⟨x1, hx1⟩ := removeSmall_ok (t := ⟨m.ty, W⟩) (1 / 10 ^ 10) (by show 0 < W.nr; omega) (by show 0 < W.nc; omega)
  obtain ⟨x2, hx2⟩ := removeSmall_ok (t := ⟨m.ty, H⟩) (1 / 10 ^ 10) (by show 0 < H.nr; omega) (by show 0 < H.nc; omega)
  have hvt : v.transpose = .ok ⟨v.ty, v.val.transpose⟩ :=
    TMat.transpose_ok (by rw [h.vnr]; exact hc) (by rw [h.vnc]; exact hn)
  have hrun : nndsvdInit env m k = nndsvdPad ⟨m.ty, W⟩ ⟨m.ty, H⟩ n k := by
    unfold nndsvdInit
    rw [hs, ok_bind]
    simp only [hunc, hvt, ok_bind, l1, w1, h1, hx1, hx2]
  rw [hrun]
  unfold nndsvdPad
  split
  · rename_i hlt
    have hd : 0 < k - n := by omega
    have z1 : paddZeroCols ⟨m.ty, W⟩ (k - n) = .ok ⟨m.ty, W.hstack (Mat.const m.nr (k - n) 0)⟩ := by
      unfold paddZeroCols
      rw [show (⟨m.ty, W⟩ : TMat ℝ).nr = m.nr from w2, TMat.ofNumpy_ok (A := Mat.const m.nr (k - n) 0) hr hd, ok_bind]
      exact TMat.hstack_ok rfl w2 (by show 0 < W.nr; omega) (by show 0 < W.nc + _; omega)
    have z2 : paddZeroRows ⟨m.ty, H⟩ (k - n) = .ok ⟨m.ty, H.vstack (Mat.const (k - n) m.nc 0)⟩ := by
      unfold paddZeroRows
      rw [show (⟨m.ty, H⟩ : TMat ℝ).nc = m.nc from h3, TMat.ofNumpy_ok (A := Mat.const (k - n) m.nc 0) hd hc, ok_bind]
      exact TMat.vstack_ok rfl h3 (by show 0 < H.nr + _; omega) (by show 0 < H.nc; omega)
    rw [z1, ok_bind, z2, ok_bind]
    refine ⟨_, _, rfl, core _ _ rfl rfl w2 ?_ ?_ h3 ?_ ?_ ?_ ?_⟩
    · show W.nc + (k - n) = k; omega
    · show H.nr + (k - n) = k; omega
    · intro r i hi
      simp only
      rw [Mat.hstack_get (B := Mat.const m.nr (k - n) 0) w2, if_pos (by omega)]
    · intro i c hi
      simp only
      rw [Mat.vstack_get (B := Mat.const (k - n) m.nc 0) h3, if_pos (by omega)]
    · intro i r hi
      simp only
      rw [Mat.hstack_get (B := Mat.const m.nr (k - n) 0) w2, if_neg (by omega)]
      simp [Mat.const, Mat.of_get]
    · intro i c hi
      simp only
      rw [Mat.vstack_get (B := Mat.const (k - n) m.nc 0) h3, if_neg (by omega)]
      simp [Mat.const, Mat.of_get]
  · have hkn : k = n := by omega
    exact ⟨_, _, rfl, core _ _ rfl rfl w2 (by rw [hkn]; exact w3) (by rw [hkn]; exact h2) h3 (fun _ _ _ => rfl)
      (fun _ _ _ => rfl) (fun i r hi => W.get_col_oob r (by omega)) (fun i c hi => H.get_row_oob c (by omega))⟩

theorem numRank_pos {s : List ℝ} (hs : s.Pairwise (fun x y => y ≤ x)) {j : ℕ} (hj : j < numRank s) :
    svdTol < s.getD j 0 := by
  induction s generalizing j with
  | nil => simp [numRank] at hj
  | cons x s ih =>
    rw [List.pairwise_cons] at hs
    by_cases hx : svdTol < x
    · cases j with
      | zero => simpa using hx
      | succ j =>
        have hr : numRank (x :: s) = numRank s + 1 := by simp [numRank, hx]
        simpa using ih hs.2 (j := j) (by omega)
    · exfalso
      have : numRank (x :: s) = 0 := by
        unfold numRank
        rw [List.length_eq_zero_iff, List.filter_eq_nil_iff]
        intro y hy
        rcases List.mem_cons.1 hy with rfl | hy
        · simpa using hx
        · have := hs.1 y hy
          simp only [decide_eq_true_eq, not_lt]
          exact this.trans (not_lt.1 hx)
      omega

/-- Keeping the first `n` triples and multiplying both factors by the same sign. -/
theorem svdOut_of_triples {m : TMat ℝ} {u : Mat ℝ} {s : List ℝ} {vt : Mat ℝ} {n : ℕ} (h : SingularTriples m.val u s vt)
    (hn : n ≤ s.length) (hpos : ∀ j < n, 0 < s.getD j 0) (u' v' : Mat ℝ) (hu' : u'.nr = m.nr ∧ u'.nc = n)
    (hug : ∀ i j, j < n → u'.get i j = u.get i j) (hv' : v'.nr = m.nc ∧ v'.nc = n)
    (hvg : ∀ i j, j < n → v'.get i j = vt.get j i) (σ : ℝ) (hσ : σ * σ = 1) :
    SvdOut m n ⟨m.ty, u'.smul σ⟩ ⟨[(s.take n).length], s.take n⟩ ⟨m.ty, v'.smul σ⟩ := by
  refine ⟨rfl, hu'.1, hu'.2, rfl, hv'.1, hv'.2, by simp [hn], fun j hj => by rw [getD_take hj]; exact hpos j hj, ?_, ?_, ?_⟩
  · intro j hj
    have := h.uOrth j j (by omega) (by omega)
    rw [if_pos rfl] at this
    rw [← this]
    refine Finset.sum_congr rfl (fun i _ => ?_)
    simp only [Mat.smul_get, hug i j hj]
    rw [show σ * u.get i j * (σ * u.get i j) = (σ * σ) * (u.get i j * u.get i j) by ring, hσ, one_mul]
  · intro j hj
    have := h.vOrth j j (by omega) (by omega)
    rw [if_pos rfl] at this
    rw [← this]
    refine Finset.sum_congr rfl (fun i _ => ?_)
    simp only [Mat.smul_get, hvg i j hj]
    rw [show σ * vt.get j i * (σ * vt.get j i) = (σ * σ) * (vt.get j i * vt.get j i) by ring, hσ, one_mul]
  · intro i j hi hj
    have := h.triple i j hi (by omega)
    rw [getD_take hj]
    simp only [Mat.smul_get, hug i j hj]
    rw [show s.getD j 0 * (σ * u.get i j) = σ * (s.getD j 0 * u.get i j) by ring, ← this, Finset.mul_sum]
    refine Finset.sum_congr rfl (fun l _ => ?_)
    rw [hvg l j hj]; ring

/-- **C96** dense matrices: with a correct decomposition that has a non-zero singular value, `nndsvd_init` never
raises (in particular it never divides by the length of an empty section) and returns the NNDSVD starting factors of
the requested inner dimension, made from the `min(k, rank)` triples `Linalg.svd` returns. -/
theorem C96_nndsvd_dense (env : Env) (m : TMat ℝ) (k : ℕ) (u0 : Mat ℝ) (s0 : List ℝ) (vt0 : Mat ℝ) (hty : m.ty = .dense)
    (hm : NonNegative m.val) (hr : 0 < m.nr) (hc : 0 < m.nc) (hk : 0 < k) (he : env.npSvd m.val = .ok (u0, s0, vt0))
    (hsvd : IsSvd m.val u0 s0 vt0) (hrank : ∃ x ∈ s0, svdTol < x) :
    ∃ u s v w h, svd env m k = .ok (u, s, v) ∧ u.nc = min k (s0.filter (fun x => decide (svdTol < x))).length ∧
      nndsvdInit env m k = .ok (w, h) ∧ NndsvdStart m u s.data v k w h := by
  have h := hsvd.triples
  have hrl := numRank_le s0
  have hrpos : 0 < numRank s0 := by
    obtain ⟨x, hx, hxt⟩ := hrank
    exact List.length_pos_of_mem (List.mem_filter.2 ⟨hx, by simpa using hxt⟩)
  have hno : min (min u0.nc k) (numRank s0) = min k (numRank s0) := by rw [h.uCols]; omega
  set n := min k (numRank s0) with hn
  have hn0 : 0 < n := by omega
  have hnl : n ≤ s0.length := by omega
  have hur : (u0.takeCols n).nr = m.nr ∧ (u0.takeCols n).nc = n :=
    ⟨h.uRows, Mat.takeCols_nc (by rw [h.uCols]; exact hnl)⟩
  have hvr : (vt0.takeRows n).transpose.nr = m.nc ∧ (vt0.takeRows n).transpose.nc = n :=
    ⟨h.vCols, Mat.takeRows_nr (by rw [h.vRows]; exact hnl)⟩
  obtain ⟨σ, hσ, hsf⟩ := signFix_eq (⟨.dense, u0.takeCols n⟩ : TMat ℝ) ⟨.dense, (vt0.takeRows n).transpose⟩
    ⟨by show 0 < (u0.takeCols n).nr; rw [hur.1]; exact hr, by show 0 < (u0.takeCols n).nc; rw [hur.2]; exact hn0⟩
    ⟨by show 0 < (vt0.takeRows n).transpose.nr; rw [hvr.1]; exact hc,
      by show 0 < (vt0.takeRows n).transpose.nc; rw [hvr.2]; exact hn0⟩
  have hout := svdOut_of_triples (m := m) h hnl
    (fun j hj => lt_trans (by norm_num [svdTol]) (numRank_pos h.sorted (by omega : j < numRank s0)))
    (u0.takeCols n) (vt0.takeRows n).transpose hur
    (fun i j hj => Mat.takeCols_get i hj (by rw [h.uCols]; exact hnl)) hvr
    (fun i j hj => by
      rw [Mat.transpose_get]
      exact Mat.takeRows_get i hj (by rw [h.vRows]; exact hnl)) σ hσ
  have hs : svd env m k = .ok (⟨m.ty, (u0.takeCols n).smul σ⟩, ⟨[(s0.take n).length], s0.take n⟩,
      ⟨m.ty, (vt0.takeRows n).transpose.smul σ⟩) := by
    have hno' : min (min u0.nc k) (s0.filter (fun x => decide (svdTol < x))).length = n := hno
    simp only [svd, if_neg hk.ne', hty, denseSvd, he, ok_bind]
    rw [hno', TMat.ofNumpy_ok (by rw [hur.1]; exact hr) (by rw [hur.2]; exact hn0),
      TMat.ofNumpy_ok (by rw [hvr.1]; exact hc) (by rw [hvr.2]; exact hn0)]
    simp only [ok_bind, hsf, pure_eq_ok]
  obtain ⟨w, hh, h1, h2⟩ := nndsvdInit_ok env m k n _ _ _ hm hr hc hn0 (by omega) hs hout
  exact ⟨_, _, _, w, hh, hs, hout.unc, h1, h2⟩

/-- **C96** sparse matrices: the same, when all singular values that are used are positive. -/
theorem C96_nndsvd_sparse (env : Env) (m : TMat ℝ) (k : ℕ) (ut : Mat ℝ) (s0 : List ℝ) (vt0 : Mat ℝ)
    (hty : m.ty = .sparse) (hm : NonNegative m.val) (hr : 0 < m.nr) (hc : 0 < m.nc) (hk : 0 < k)
    (he : env.sparseSvd m.val (k + k / 10) = .ok (ut, s0, vt0)) (hsvd : SingularTriples m.val ut.transpose s0 vt0)
    (hlen : 0 < s0.length) (hpos : ∀ j < min k s0.length, 0 < s0.getD j 0) :
    ∃ u s v w h, svd env m k = .ok (u, s, v) ∧ u.nc = min k s0.length ∧
      nndsvdInit env m k = .ok (w, h) ∧ NndsvdStart m u s.data v k w h := by
  set n := min k s0.length with hn
  have hn0 : 0 < n := by omega
  have hnl : n ≤ s0.length := by omega
  have hucols := hsvd.uCols
  have hur : (ut.transpose.takeCols n).nr = m.nr ∧ (ut.transpose.takeCols n).nc = n :=
    ⟨hsvd.uRows, Mat.takeCols_nc (by rw [hucols]; exact hnl)⟩
  have hvr : (vt0.transpose.takeCols n).nr = m.nc ∧ (vt0.transpose.takeCols n).nc = n :=
    ⟨hsvd.vCols, Mat.takeCols_nc (by rw [Mat.transpose_nc, hsvd.vRows]; exact hnl)⟩
  obtain ⟨σ, hσ, hsf⟩ := signFix_eq (⟨.sparse, ut.transpose.takeCols n⟩ : TMat ℝ) ⟨.sparse, vt0.transpose.takeCols n⟩
    ⟨by show 0 < (ut.transpose.takeCols n).nr; rw [hur.1]; exact hr,
      by show 0 < (ut.transpose.takeCols n).nc; rw [hur.2]; exact hn0⟩
    ⟨by show 0 < (vt0.transpose.takeCols n).nr; rw [hvr.1]; exact hc,
      by show 0 < (vt0.transpose.takeCols n).nc; rw [hvr.2]; exact hn0⟩
  have hout := svdOut_of_triples (m := m) hsvd hnl hpos
    (ut.transpose.takeCols n) (vt0.transpose.takeCols n) hur
    (fun i j hj => Mat.takeCols_get i hj (by rw [hucols]; exact hnl)) hvr
    (fun i j hj => by
      rw [Mat.takeCols_get i hj (by rw [Mat.transpose_nc, hsvd.vRows]; exact hnl)]; rfl) σ hσ
  have hs : svd env m k = .ok (⟨m.ty, (ut.transpose.takeCols n).smul σ⟩, ⟨[(s0.take n).length], s0.take n⟩,
      ⟨m.ty, (vt0.transpose.takeCols n).smul σ⟩) := by
    simp only [svd, if_neg hk.ne', hty, sparseSvd, he, ok_bind]
    rw [TMat.ofNumpy_ok (by rw [hsvd.uRows]; exact hr) (by rw [hucols]; exact hlen),
      TMat.ofNumpy_ok (A := vt0.transpose) (by rw [Mat.transpose_nr, hsvd.vCols]; exact hc)
        (by rw [Mat.transpose_nc, hsvd.vRows]; exact hlen)]
    have hno : min (⟨.sparse, ut.transpose⟩ : TMat ℝ).nc k = n := by
      show min ut.transpose.nc k = n
      rw [hucols, hn]; omega
    simp only [ok_bind, hno, TMat.wrap, hsf, pure_eq_ok]
  obtain ⟨w, hh, h1, h2⟩ := nndsvdInit_ok env m k n _ _ _ hm hr hc hn0 (by omega) hs hout
  exact ⟨_, _, _, w, hh, hs, hout.unc, h1, h2⟩

/-- **C96** `random_init`: for numbers drawn in range, `w` consists of `k` columns and `h` of `k` rows of the matrix. -/
theorem C96_random (m : TMat ℝ) (k : ℕ) (cols rows : List ℕ) (hr : 0 < m.nr) (hc : 0 < m.nc) (hk : 0 < k)
    (hcl : cols.length = k) (hrl : rows.length = k) (hcr : ∀ c ∈ cols, c < m.nc) (hrr : ∀ r ∈ rows, r < m.nr) :
    ∃ w h, randomInit m cols rows = .ok (w, h) ∧ w.ty = m.ty ∧ h.ty = m.ty ∧ w.nr = m.nr ∧ w.nc = k ∧ h.nr = k ∧
      h.nc = m.nc ∧ (∀ i j, (hj : j < cols.length) → w.val.get i j = m.val.get i cols[j]) ∧
      (∀ i j, (hi : i < rows.length) → h.val.get i j = m.val.get rows[i] j) ∧
      (NonNegative m.val → NonNegative w.val ∧ NonNegative h.val) := by
  have e1 : m.getCols cols = .ok ⟨m.ty, m.val.selCols cols⟩ := by
    unfold TMat.getCols
    rw [if_pos (by
      rw [List.all_eq_true]
      intro c hcm
      simpa using hcr c hcm)]
    exact TMat.wrap_ok_pos hr (by simp [hcl, hk])
  have e2 : m.getRows (rows.map Int.ofNat) = .ok ⟨m.ty, m.val.selRows rows⟩ := by
    unfold TMat.getRows
    rw [TMat.normIdx_nat hrr]
    exact TMat.wrap_ok_pos (by simp [hrl, hk]) hc
  refine ⟨⟨m.ty, m.val.selCols cols⟩, ⟨m.ty, m.val.selRows rows⟩, ?_, rfl, rfl, rfl, hcl, hrl, rfl, ?_, ?_, ?_⟩
  · unfold randomInit
    rw [e1, ok_bind, e2, ok_bind]; rfl
  · intro i j hj
    exact Mat.selCols_get_some (List.getElem?_eq_getElem hj) i
  · intro i j hi
    exact Mat.selRows_get_some (List.getElem?_eq_getElem hi) j
  · intro hm
    exact ⟨fun i j hi _ => selCols_nonneg hm cols hcr hi j, fun i j _ hj => selRows_nonneg hm rows hrr i hj⟩

/-- **C96** whichever of these initialisations is used, `Linalg.nmf` accepts it: it returns non-negative factors of the
requested shapes whose squared error is not larger than that of the initialisation. -/
theorem C96_nmf_from_start (m u : TMat ℝ) (s : List ℝ) (v : TMat ℝ) (k : ℕ) (w0 h0 : TMat ℝ) (timeout : ℕ → Bool)
    (hr : 0 < m.nr) (hc : 0 < m.nc) (hk : 0 < k) (h : NndsvdStart m u s v k w0 h0) :
    ∃ w h, nmf m w0 h0 timeout = .ok (w, h) ∧ NonNegative w.val ∧ NonNegative h.val ∧ w.nr = m.nr ∧ w.nc = k ∧
      h.nr = k ∧ h.nc = m.nc ∧
      ∑ i ∈ range m.nr, ∑ j ∈ range m.nc, (m.val.get i j - (w.val.mul h.val).get i j) ^ 2 ≤
      ∑ i ∈ range m.nr, ∑ j ∈ range m.nc, (m.val.get i j - (w0.val.mul h0.val).get i j) ^ 2 := by
  obtain ⟨w, hh, a1, a2, a3, a4, a5, a6, a7, a8⟩ := C23_nmf_not_worse m w0 h0 timeout hr hc (by rw [h.wnc]; exact hk)
    h.wty h.hty h.wnr (by rw [h.hnr, h.wnc]) h.hnc
    (fun i j hi hj => h.wpos i j (by rw [← h.wnr]; exact hi) (by rw [← h.wnc]; exact hj))
    (fun i j hi hj => h.hpos i j (by rw [← h.hnr]; exact hi) (by rw [← h.hnc]; exact hj))
  exact ⟨w, hh, a1, a2, a3, a4, a5.trans h.wnc, a6.trans h.wnc, a7, a8⟩

/-- Non-vacuity: the dense and the sparse `diag(3, 2)` with the decomposition of `exEnv`, and `k = 3`, larger than the
rank, so that the factors are padded. -/
example : ∃ u s v w h, svd exEnv ⟨.dense, exDiag⟩ 3 = .ok (u, s, v) ∧ u.nc = 2 ∧
    nndsvdInit exEnv ⟨.dense, exDiag⟩ 3 = .ok (w, h) ∧ NndsvdStart ⟨.dense, exDiag⟩ u s.data v 3 w h := by
  have hnn : NonNegative exDiag := by
    intro i j _ _
    simp only [exDiag, Mat.of_get]
    repeat' split
    all_goals norm_num
  obtain ⟨u, s, v, w, h, h1, h2, h3, h4⟩ := C96_nndsvd_dense exEnv ⟨.dense, exDiag⟩ 3 exOne [3, 2] exOne rfl hnn
    (by simp [TMat.nr, exDiag]) (by simp [TMat.nc, exDiag]) (by norm_num) rfl ex_isSvd ⟨3, by simp, by norm_num [svdTol]⟩
  refine ⟨u, s, v, w, h, h1, ?_, h3, h4⟩
  rw [h2]
  have : ([3, 2] : List ℝ).filter (fun x => decide (svdTol < x)) = [3, 2] := by
    simp only [List.filter_cons, List.filter_nil]
    norm_num [svdTol]
  rw [this]; rfl

example : ∃ u s v w h, svd exEnv ⟨.sparse, exDiag⟩ 1 = .ok (u, s, v) ∧ u.nc = 1 ∧
    nndsvdInit exEnv ⟨.sparse, exDiag⟩ 1 = .ok (w, h) ∧ NndsvdStart ⟨.sparse, exDiag⟩ u s.data v 1 w h := by
  have hnn : NonNegative exDiag := by
    intro i j _ _
    simp only [exDiag, Mat.of_get]
    repeat' split
    all_goals norm_num
  have ht : exOne.transpose = exOne := Mat.ext_get rfl rfl (fun i j => by
    simp only [exOne, Mat.transpose_get, Mat.of_get, and_comm, eq_comm])
  exact C96_nndsvd_sparse exEnv ⟨.sparse, exDiag⟩ 1 exOne [3, 2] exOne rfl hnn
    (by simp [TMat.nr, exDiag]) (by simp [TMat.nc, exDiag]) (by norm_num) rfl (by rw [ht]; exact ex_isSvd.triples)
    (by simp) (by intro j hj; have : j = 0 := by simp at hj; omega
                  subst this; norm_num)

/-- Non-vacuity for `C96_random`: two columns and two rows of a 2×3 matrix. -/
example : ∃ w h, randomInit ⟨.sparse, Mat.of 2 3 (fun i j => (i + j : ℕ))⟩ [2, 0] [1, 1] = .ok (w, h) ∧
    w.val.get 1 0 = 3 ∧ h.val.get 0 2 = 3 := by
  obtain ⟨w, h, h1, _, _, _, _, _, _, h8, h9, _⟩ := C96_random ⟨.sparse, Mat.of 2 3 (fun i j => (i + j : ℕ))⟩ 2 [2, 0] [1, 1]
    (by simp [TMat.nr]) (by simp [TMat.nc]) (by norm_num) rfl rfl (by simp [TMat.nc]) (by simp [TMat.nr])
  refine ⟨w, h, h1, ?_, ?_⟩
  · rw [h8 1 0 (by simp)]; norm_num [Mat.of_get]
  · rw [h9 0 2 (by simp)]; norm_num [Mat.of_get]

end
end Dissect
