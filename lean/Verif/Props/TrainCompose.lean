import Verif.Lemmas.Train
import Verif.Props.Compose
import Verif.Props.Regression

/-! # Training composition models (C44, C48, C49) -/

namespace Dissect
open Finset
noncomputable section
variable {κ : Type} [DecidableEq κ]

theorem trainTriples_mem {s1 s2 p : Space κ} {data : List (Triple κ)} {t : Triple κ}
    (ht : t ∈ trainTriples s1 s2 p data) : t.1 ∈ s1.id2row ∧ t.2.1 ∈ s2.id2row ∧ t.2.2 ∈ p.id2row := by
  rw [trainTriples, List.mem_filter] at ht
  simpa using ht.2

theorem train_reduce (env : Env) (c : Composer κ) (data : List (Triple κ)) (args : ArgSpace κ) (s1 s2 p : Space κ)
    (hx : args.extract = .ok (s1, s2)) (h1 : s1.WF) (h2 : s2.WF) (hp : p.WF) (hv : trainTriples s1 s2 p data ≠ [])
    (hc : c.model.trainable = true) :
    c.train env data args p =
      (c.model.trainOn env s1 s2 p ((trainTriples s1 s2 p data).map (·.1)) ((trainTriples s1 s2 p data).map (·.2.1))
        ((trainTriples s1 s2 p data).map (·.2.2)) >>= fun m => .ok ⟨m, some p.id2col⟩) := by
  have hd : data ≠ [] := by
    rintro rfl
    exact hv rfl
  rw [Composer.train_shared hc]
  unfold Composer.trainShared
  rw [hx]
  simp only [ok_bind]
  rw [validData_eq _ _ _ data (trainTriples s1 s2 p data) (by rw [trainTriples_eq h1 h2 hp]), if_neg hd, if_neg hv]
  rfl

/-! ## C48 -/

/-- The matrix of inner products of the first and second vectors of the samples. -/
def gram2 (s1 s2 : Space κ) (n : ℕ) (l : List (Triple κ)) : Mat ℝ :=
  Mat.of 2 2 (fun i j => (l.map (fun t => dot n (if i = 0 then s1.vecOf t.1 else s2.vecOf t.2.1)
    (if j = 0 then s1.vecOf t.1 else s2.vecOf t.2.1))).sum)

theorem gram2_eq (s1 s2 p : Space κ) (n : ℕ) (l : List (Triple κ)) :
    Mat.of 2 2 (fun i j => if i = 0 ∧ j = 0 then (dotsOf s1 s2 p n l).n1 else
      if i = 1 ∧ j = 1 then (dotsOf s1 s2 p n l).n2 else (dotsOf s1 s2 p n l).d12) = gram2 s1 s2 n l := by
  refine Mat.ext' rfl rfl (fun i j hi hj => ?_)
  have hi' : i < 2 := hi
  have hj' : j < 2 := hj
  unfold gram2
  rw [Mat.of_get_lt hi' hj', Mat.of_get_lt hi' hj']
  have : i = 0 ∨ i = 1 := by omega
  have : j = 0 ∨ j = 1 := by omega
  rcases ‹i = 0 ∨ i = 1› with rfl | rfl <;> rcases ‹j = 0 ∨ j = 1› with rfl | rfl
  · rfl
  · rfl
  · simp only [one_ne_zero, false_and, if_false, zero_ne_one, and_false, if_true, dotsOf]
    congr 1
    refine List.map_congr_left (fun t _ => ?_)
    unfold dot
    exact Finset.sum_congr rfl (fun _ _ => mul_comm _ _)
  · rfl

/-- The samples that `WeightedAdditive` looks at: whole chunks of `rows/15 + 1` samples. -/
def usedSamples (p : Space κ) (v : List (Triple κ)) : List (Triple κ) :=
  v.take (v.length / (p.mat.nr / 15 + 1) * (p.mat.nr / 15 + 1))

theorem trainWeighted_ok (env : Env) (c : Composer κ) (a0 b0 : ℝ) (hc : c.model = .weighted a0 b0)
    (data : List (Triple κ)) (args : ArgSpace κ) (s1 s2 p : Space κ) (n : ℕ)
    (hx : args.extract = .ok (s1, s2)) (h1 : s1.WF) (h2 : s2.WF) (hp : p.WF) (hn : 0 < n)
    (n1 : s1.mat.nc = n) (n2 : s2.mat.nc = n) (n3 : p.mat.nc = n) (hv : trainTriples s1 s2 p data ≠ []) (P : Mat ℝ)
    (hP : env.npPinv (gram2 s1 s2 n (usedSamples p (trainTriples s1 s2 p data))) = .ok P) (hPc : P.nc = 2) :
    let d := dotsOf s1 s2 p n (usedSamples p (trainTriples s1 s2 p data))
    c.train env data args p = .ok ⟨.weighted (P.get 0 0 * d.d1p + P.get 0 1 * d.d2p)
      (P.get 1 0 * d.d1p + P.get 1 1 * d.d2p), some p.id2col⟩ := by
  intro d
  rw [train_reduce env c data args s1 s2 p hx h1 h2 hp hv (by rw [hc]; rfl), hc]
  set v := trainTriples s1 s2 p data with hvd
  simp only [CModel.trainOn, trainWeighted]
  have hloop := chunkLoop_ok h1 h2 hp hn n1 n2 n3 v (fun t ht => trainTriples_mem ht) (chunkSize p.mat.nr)
    (by unfold chunkSize; omega) (v.length / chunkSize p.mat.nr) 0
    (by rw [Nat.zero_add]; exact Nat.div_mul_le_self _ _)
  rw [Nat.zero_mul, List.take_zero, Nat.zero_add] at hloop
  have hzero : dotsOf s1 s2 p n [] = ⟨0, 0, 0, 0, 0⟩ := by simp [dotsOf]
  rw [hzero, ← List.range_eq_range'] at hloop
  rw [List.length_map, hloop]
  have hd : dotsOf s1 s2 p n (v.take (v.length / chunkSize p.mat.nr * chunkSize p.mat.nr)) = d := rfl
  rw [hd]
  simp only [ok_bind, train2]
  rw [gram2_eq, hP]
  simp only [ok_bind, pure_eq_ok, Mat.mul_get, hPc]
  simp [Finset.sum_range_succ, Mat.of_get]

theorem weighted_min (s1 s2 p : Space κ) (n : ℕ) (n3 : p.mat.nc = n) (l : List (Triple κ)) (P : Mat ℝ)
    (hP : IsPinv (gram2 s1 s2 n l) P) (a b : ℝ) :
    let d := dotsOf s1 s2 p n l
    trainError s1 s2 p l (weightedVec (P.get 0 0 * d.d1p + P.get 0 1 * d.d2p) (P.get 1 0 * d.d1p + P.get 1 1 * d.d2p)) ≤
      trainError s1 s2 p l (weightedVec a b) := by
  intro d
  have hfs := flatSamples_sum s1 s2 p n l
  have key := two_param_min (flatSamples s1 s2 p n l) P d.n1 d.n2 d.d12 d.d1p d.d2p
    (hfs (fun x _ _ => x * x)).symm (hfs (fun _ y _ => y * y)).symm (hfs (fun x y _ => x * y)).symm
    (hfs (fun x _ z => x * z)).symm (hfs (fun _ y z => y * z)).symm (by rw [gram2_eq s1 s2 p n l]; exact hP) a b
  rw [hfs (fun x y z => ((P.get 0 0 * d.d1p + P.get 0 1 * d.d2p) * x + (P.get 1 0 * d.d1p + P.get 1 1 * d.d2p) * y - z) ^ 2),
    hfs (fun x y z => (a * x + b * y - z) ^ 2)] at key
  unfold trainError
  rw [n3]
  exact key

/-- **C48** what holds: with a correct pseudo-inverse, `WeightedAdditive.train` sets the parameters to a minimiser of the
total squared error over the first `⌊m/k⌋·k` of the `m` valid samples, where `k` is the chunk size `rows/15 + 1` of the
phrase space. Missing: the last `m mod k` samples are never looked at, see `C48_refuted`. -/
theorem C48_used_partial (env : Env) (c : Composer κ) (a0 b0 : ℝ) (hc : c.model = .weighted a0 b0)
    (data : List (Triple κ)) (args : ArgSpace κ) (s1 s2 p : Space κ) (n : ℕ)
    (hx : args.extract = .ok (s1, s2)) (h1 : s1.WF) (h2 : s2.WF) (hp : p.WF) (hn : 0 < n)
    (n1 : s1.mat.nc = n) (n2 : s2.mat.nc = n) (n3 : p.mat.nc = n) (hv : trainTriples s1 s2 p data ≠ []) (P : Mat ℝ)
    (hP : env.npPinv (gram2 s1 s2 n (usedSamples p (trainTriples s1 s2 p data))) = .ok P)
    (hpin : IsPinv (gram2 s1 s2 n (usedSamples p (trainTriples s1 s2 p data))) P) :
    ∃ a b, c.train env data args p = .ok ⟨.weighted a b, some p.id2col⟩ ∧
      ∀ a' b', trainError s1 s2 p (usedSamples p (trainTriples s1 s2 p data)) (weightedVec a b) ≤
        trainError s1 s2 p (usedSamples p (trainTriples s1 s2 p data)) (weightedVec a' b') :=
  ⟨_, _, trainWeighted_ok env c a0 b0 hc data args s1 s2 p n hx h1 h2 hp hn n1 n2 n3 hv P hP hpin.nc,
    fun a' b' => weighted_min s1 s2 p n n3 _ P hpin a' b'⟩

/-- **C48** in particular, when the chunk size divides the number of valid samples (for example whenever the phrase
space has fewer than 15 rows), the parameters minimise the total squared error over all valid samples. -/
theorem C48_whole_chunks_partial (env : Env) (c : Composer κ) (a0 b0 : ℝ) (hc : c.model = .weighted a0 b0)
    (data : List (Triple κ)) (args : ArgSpace κ) (s1 s2 p : Space κ) (n : ℕ)
    (hx : args.extract = .ok (s1, s2)) (h1 : s1.WF) (h2 : s2.WF) (hp : p.WF) (hn : 0 < n)
    (n1 : s1.mat.nc = n) (n2 : s2.mat.nc = n) (n3 : p.mat.nc = n) (hv : trainTriples s1 s2 p data ≠ [])
    (hdvd : (p.mat.nr / 15 + 1) ∣ (trainTriples s1 s2 p data).length) (P : Mat ℝ)
    (hP : env.npPinv (gram2 s1 s2 n (trainTriples s1 s2 p data)) = .ok P)
    (hpin : IsPinv (gram2 s1 s2 n (trainTriples s1 s2 p data)) P) :
    ∃ a b, c.train env data args p = .ok ⟨.weighted a b, some p.id2col⟩ ∧
      ∀ a' b', trainError s1 s2 p (trainTriples s1 s2 p data) (weightedVec a b) ≤
        trainError s1 s2 p (trainTriples s1 s2 p data) (weightedVec a' b') := by
  have hall : usedSamples p (trainTriples s1 s2 p data) = trainTriples s1 s2 p data := by
    unfold usedSamples
    rw [Nat.div_mul_cancel hdvd, List.take_length]
  have := C48_used_partial env c a0 b0 hc data args s1 s2 p n hx h1 h2 hp hn n1 n2 n3 hv P (by rw [hall]; exact hP)
    (by rw [hall]; exact hpin)
  rwa [hall] at this

theorem pinv_zero {Z P : Mat ℝ} (hz : ∀ i j, Z.get i j = 0) (h : IsPinv Z P) (i j : ℕ) : P.get i j = 0 := by
  rw [← h.two]
  simp [Mat.mul_get, hz]

/-- The 2×2 zero matrix. -/
def zero2 : Mat ℝ := Mat.of 2 2 (fun _ _ => 0)

/-- A space with 15 words whose vectors are all `(1)`. -/
def ones15 : Py (Space ℕ) :=
  Space.new ⟨.dense, Mat.of 15 1 (fun _ _ => (1 : ℝ))⟩ (List.range 15) [] none none [] none

theorem ones15_ok : ∃ s, ones15 = .ok s ∧ s.WF ∧ s.mat.nc = 1 ∧ s.mat.nr = 15 ∧ s.id2row = List.range 15 ∧
    ∀ w, w < 15 → s.vecOf w 0 = 1 := by
  obtain ⟨r, hr⟩ := Space.resolveMap_none (l := List.range 15) List.nodup_range
  obtain ⟨d, hd⟩ := Space.resolveMap_none (l := ([] : List ℕ)) List.nodup_nil
  have hnew := Space.new_ok (m := ⟨.dense, Mat.of 15 1 (fun _ _ => (1 : ℝ))⟩) (ops := []) (sh := none) hr hd rfl
    (by simp) (by simp)
  obtain ⟨e1, e2, e3, _, _, _, _, wf⟩ := Space.new_eq_ok hnew
  refine ⟨_, hnew, wf, rfl, rfl, e2, fun w hw => ?_⟩
  unfold Space.vecOf
  simp only
  rw [Mat.of_get_lt _ (by omega)]
  have : (List.range 15).idxOf w < (List.range 15).length := List.idxOf_lt_length_of_mem (List.mem_range.2 hw)
  simpa using this

/-- **C48** is false as stated: for every back end whose pseudo-inverse of the 2×2 zero matrix is correct, there are a
(15-row) space and a one-element training set for which `WeightedAdditive.train` succeeds with the parameters `(0, 0)`,
although `(1, 0)` fits the sample exactly and `(0, 0)` does not. -/
theorem C48_refuted (env : Env) (P : Mat ℝ) (hP : env.npPinv zero2 = .ok P) (hpin : IsPinv zero2 P) :
    ∃ (c : Composer ℕ) (s : Space ℕ) (data : List (Triple ℕ)), newWeighted .absent .absent = .ok c ∧ s.WF ∧
      trainTriples s s s data = data ∧ c.train env data (.one s) s = .ok ⟨.weighted 0 0, some s.id2col⟩ ∧
      trainError s s s data (weightedVec 1 0) = 0 ∧ 0 < trainError s s s data (weightedVec 0 0) := by
  obtain ⟨s, _, wf, nc, nr, rows, hvec⟩ := ones15_ok
  have htr : trainTriples s s s [(0, 1, 2)] = [(0, 1, 2)] := by
    unfold trainTriples
    rw [rows]
    rfl
  have hused : usedSamples s [(0, 1, 2)] = [] := by
    unfold usedSamples
    rw [nr]
    rfl
  have hg : gram2 s s 1 (usedSamples s [(0, 1, 2)]) = zero2 := by
    rw [hused]
    rfl
  refine ⟨⟨.weighted (1 / 2) (1 / 2), none⟩, s, [(0, 1, 2)], rfl, wf, htr, ?_, ?_, ?_⟩
  · have := trainWeighted_ok env (⟨.weighted (1 / 2) (1 / 2), none⟩ : Composer ℕ) _ _ rfl [(0, 1, 2)] (.one s) s s s 1
      ((extract_iff _ _ _).2 (Or.inl ⟨rfl, rfl⟩)) wf wf wf Nat.one_pos nc nc nc (by rw [htr]; simp) P
      (by rw [htr, hg]; exact hP) hpin.nc
    rw [this]
    have hz := pinv_zero (Z := zero2) (by intro i j; simp [zero2, Mat.of_get]) hpin
    simp [hz]
  · simp [trainError, nc, weightedVec, hvec]
  · simp [trainError, nc, weightedVec, hvec]

/-- The pseudo-inverse of the zero matrix is the zero matrix. -/
theorem zero2_pinv : IsPinv zero2 zero2 := by
  refine ⟨rfl, rfl, ?_, ?_, ?_, ?_⟩ <;>
  · refine Mat.ext_get rfl rfl (fun i j => ?_)
    simp [zero2, Mat.mul_get, Mat.of_get]

/-- non-vacuity of C48_refuted: such a back end exists. -/
example : ∃ (env : Env) (P : Mat ℝ), env.npPinv zero2 = .ok P ∧ IsPinv zero2 P :=
  ⟨⟨fun A => .ok (A, [], A), fun A _ => .ok (A, [], A), fun _ => .ok zero2, fun A _ => .ok A⟩, zero2, rfl, zero2_pinv⟩

/-! ## C49 -/

theorem trainDilation_ok {ty : MTy} {A B C : Mat ℝ} (hpos : 0 < A.nr) (hn : 0 < A.nc) (hr : A.nr = B.nr)
    (hc : A.nc = B.nc) (hr' : A.nr = C.nr) (hc' : A.nc = C.nc) :
    trainDilation ⟨ty, A⟩ ⟨ty, B⟩ ⟨ty, C⟩ =
      let nom := ∑ k ∈ range A.nr, dot A.nc (A.get k) (B.get k) ^ 2 * dot A.nc (A.get k) (A.get k)
      let denom := ∑ k ∈ range A.nr, dot A.nc (A.get k) (B.get k) *
        dot A.nc (A.get k) (fun j => dot A.nc (A.get k) (A.get k) * B.get k j - C.get k j)
      if nom ≠ 0 then .ok (.dilation (1 - denom / nom)) else .ok (.dilation 2) := by
  have hlist : ∀ (m : ℕ) (f : ℕ → ℝ), ((List.range m).map f).sum = ∑ k ∈ range m, f k := by
    intro m f
    rw [← List.sum_toFinset f List.nodup_range, List.toFinset_range]
  set sq : ℕ → ℝ := fun k => dot A.nc (A.get k) (A.get k) with hsq
  have e2 := TMat.scaleRows_ofFun (⟨ty, B⟩ : TMat ℝ) sq
  simp only [TMat.nr] at e2
  have e0 : (⟨[A.nr, 1], (List.range A.nr).map sq⟩ : Arr ℝ) = ⟨[B.nr, 1], (List.range B.nr).map sq⟩ := by rw [hr]
  unfold trainDilation
  simp only [norm1_sq, TMat.nr, TMat.nc]
  rw [show (⟨[A.nr, 1], (List.range A.nr).map (fun i => dot A.nc (A.get i) (A.get i))⟩ : Arr ℝ) =
    ⟨[A.nr, 1], (List.range A.nr).map sq⟩ from rfl, e0, e2,
    TMat.wrap_ok_pos (A := B.scaleRows sq) (show 0 < B.nr by omega) (show 0 < B.nc by omega)]
  simp only [ok_bind]
  rw [TMat.sub_ok (s := ⟨ty, B.scaleRows sq⟩) (t := ⟨ty, C⟩) rfl (show B.nr = C.nr by omega)
    (show B.nc = C.nc by omega) (show 0 < B.nr by omega) (show 0 < B.nc by omega)]
  simp only [ok_bind]
  rw [TMat.multiply_ok (s := ⟨ty, A⟩) (t := ⟨ty, (B.scaleRows sq).sub C⟩) rfl hr hc hpos hn,
    TMat.multiply_ok (s := ⟨ty, A⟩) (t := ⟨ty, B⟩) rfl hr hc hpos hn]
  simp only [ok_bind, pure_eq_ok]
  rw [← e0]
  have hs1 : ∀ M : Mat ℝ, M.nr = A.nr →
      (⟨ty, M⟩ : TMat ℝ).sum1 = ⟨[A.nr, 1], (List.range A.nr).map M.rowSum⟩ := by
    intro M hM; unfold TMat.sum1; simp only [TMat.nr, hM]
  rw [hs1 (A.had B) rfl, hs1 (A.had ((B.scaleRows sq).sub C)) rfl]
  have hmul : ∀ f g : ℕ → ℝ, (⟨[A.nr, 1], (List.range A.nr).map f⟩ : Arr ℝ).mul ⟨[A.nr, 1], (List.range A.nr).map g⟩ =
      ⟨[A.nr, 1], (List.range A.nr).map (fun k => f k * g k)⟩ := by
    intro f g
    unfold Arr.mul
    simp only [List.zipWith_map, List.zipWith_self]
  simp only [hmul, Arr.sum, hlist]
  have hn1 : ∑ k ∈ range A.nr, (A.had B).rowSum k * (A.had B).rowSum k * sq k =
      ∑ k ∈ range A.nr, dot A.nc (A.get k) (B.get k) ^ 2 * dot A.nc (A.get k) (A.get k) := by
    refine Finset.sum_congr rfl (fun k _ => ?_)
    rw [pow_two]
    rfl
  have hn2 : ∑ k ∈ range A.nr, (A.had B).rowSum k * (A.had ((B.scaleRows sq).sub C)).rowSum k =
      ∑ k ∈ range A.nr, dot A.nc (A.get k) (B.get k) *
        dot A.nc (A.get k) (fun j => dot A.nc (A.get k) (A.get k) * B.get k j - C.get k j) := by
    refine Finset.sum_congr rfl (fun k _ => ?_)
    congr 1
    unfold Mat.rowSum dot
    refine Finset.sum_congr rfl (fun j _ => ?_)
    rw [Mat.had_get, Mat.sub_get (A := B.scaleRows sq) (B := C) (show B.nr = C.nr by omega) (show B.nc = C.nc by omega)]
    rfl
  rw [hn1, hn2]

theorem dilation_expand (n : ℕ) (u v q : ℕ → ℝ) (uu uv x : ℝ) :
    ∑ j ∈ range n, (uu * v j + (x - 1) * uv * u j - q j) ^ 2 =
      (x - 1) ^ 2 * (uv ^ 2 * dot n u u) + 2 * (x - 1) * (uv * dot n u (fun j => uu * v j - q j)) +
        ∑ j ∈ range n, (uu * v j - q j) ^ 2 := by
  unfold dot
  simp only [Finset.mul_sum, ← Finset.sum_add_distrib]
  exact Finset.sum_congr rfl (fun j _ => by ring)

/-- One parameter: `1 - denom/nom` (or anything when `nom = 0`) minimises the error. -/
theorem dilation_min {α : Type} (n : ℕ) (l : List α) (U V Q : α → ℕ → ℝ) (lam : ℝ)
    (h : let nom := (l.map (fun t => dot n (U t) (V t) ^ 2 * dot n (U t) (U t))).sum
      let denom := (l.map (fun t => dot n (U t) (V t) *
        dot n (U t) (fun j => dot n (U t) (U t) * V t j - Q t j))).sum
      (nom ≠ 0 → lam = 1 - denom / nom)) (mu : ℝ) :
    (l.map (fun t => ∑ j ∈ range n, (dilationVec n lam (U t) (V t) j - Q t j) ^ 2)).sum ≤
      (l.map (fun t => ∑ j ∈ range n, (dilationVec n mu (U t) (V t) j - Q t j) ^ 2)).sum := by
  set nom := (l.map (fun t => dot n (U t) (V t) ^ 2 * dot n (U t) (U t))).sum with hnom
  set denom := (l.map (fun t => dot n (U t) (V t) *
        dot n (U t) (fun j => dot n (U t) (U t) * V t j - Q t j))).sum with hden
  have hterm : ∀ (t : α) (x : ℝ), ∑ j ∈ range n, (dilationVec n x (U t) (V t) j - Q t j) ^ 2 =
      (x - 1) ^ 2 * (dot n (U t) (V t) ^ 2 * dot n (U t) (U t)) +
      2 * (x - 1) * (dot n (U t) (V t) * dot n (U t) (fun j => dot n (U t) (U t) * V t j - Q t j)) +
      ∑ j ∈ range n, (dot n (U t) (U t) * V t j - Q t j) ^ 2 := by
    intro t x
    exact dilation_expand n (U t) (V t) (Q t) _ _ x
  have hE : ∀ x : ℝ, (l.map (fun t => ∑ j ∈ range n, (dilationVec n x (U t) (V t) j - Q t j) ^ 2)).sum =
      (x - 1) ^ 2 * nom + 2 * (x - 1) * denom +
        (l.map (fun t => ∑ j ∈ range n, (dot n (U t) (U t) * V t j - Q t j) ^ 2)).sum := by
    intro x
    simp only [hterm]
    rw [hnom, hden, List.sum_map_add, List.sum_map_add, List.sum_map_mul_left, List.sum_map_mul_left]
  have hnn : 0 ≤ nom := List.sum_nonneg (by
    intro z hz
    obtain ⟨t, _, rfl⟩ := List.mem_map.1 hz
    exact mul_nonneg (sq_nonneg _) (Finset.sum_nonneg fun _ _ => mul_self_nonneg _))
  rw [hE, hE]
  by_cases h0 : nom = 0
  · have hd0 : denom = 0 := by
      have hz : ∀ t ∈ l, dot n (U t) (V t) = 0 := by
        intro t ht
        have hle : dot n (U t) (V t) ^ 2 * dot n (U t) (U t) = 0 := by
          have hmem : dot n (U t) (V t) ^ 2 * dot n (U t) (U t) ∈
              l.map (fun t => dot n (U t) (V t) ^ 2 * dot n (U t) (U t)) := List.mem_map.2 ⟨t, ht, rfl⟩
          have hnnall : ∀ x ∈ l.map (fun t => dot n (U t) (V t) ^ 2 * dot n (U t) (U t)), 0 ≤ x := by
            intro z hz
            obtain ⟨t, _, rfl⟩ := List.mem_map.1 hz
            exact mul_nonneg (sq_nonneg _) (Finset.sum_nonneg fun _ _ => mul_self_nonneg _)
          exact le_antisymm (h0 ▸ List.single_le_sum hnnall _ hmem) (hnnall _ hmem)
        rcases mul_eq_zero.1 hle with h | h
        · exact pow_eq_zero_iff two_ne_zero |>.1 h
        · have hu : ∀ j ∈ range n, U t j = 0 := by
            have := (Finset.sum_eq_zero_iff_of_nonneg (fun j _ => mul_self_nonneg (U t j))).1 h
            intro j hj
            exact mul_self_eq_zero.1 (this j hj)
          unfold dot
          exact Finset.sum_eq_zero (fun j hj => by rw [hu j hj, zero_mul])
      rw [hden]
      have : l.map (fun t => dot n (U t) (V t) * dot n (U t) (fun j => dot n (U t) (U t) * V t j - Q t j)) =
          l.map (fun _ => 0) := List.map_congr_left (fun t ht => by rw [hz t ht, zero_mul])
      rw [this]
      simp
    rw [h0, hd0]
    simp
  · have hlam := h h0
    have hpos : 0 < nom := lt_of_le_of_ne hnn (Ne.symm h0)
    have h2 : (lam - 1) * nom = -denom := by
      rw [hlam]; field_simp; ring
    linear_combination mul_nonneg hnn (sq_nonneg (mu - lam)) + 2 * (lam - mu) * h2

/-- **C49** `Dilation.train` on spaces with the same number of columns succeeds for every training set with a valid
sample; the trained `λ` minimises the total squared error over all valid samples, and is 2 when no sample tells anything
about `λ` (all first vectors are zero or orthogonal to the second). -/
theorem C49_dilation (env : Env) (c : Composer κ) (l0 : ℝ) (hc : c.model = .dilation l0)
    (data : List (Triple κ)) (args : ArgSpace κ) (s1 s2 p : Space κ) (n : ℕ)
    (hx : args.extract = .ok (s1, s2)) (h1 : s1.WF) (h2 : s2.WF) (hp : p.WF) (hn : 0 < n)
    (n1 : s1.mat.nc = n) (n2 : s2.mat.nc = n) (n3 : p.mat.nc = n) (hv : trainTriples s1 s2 p data ≠ []) :
    ∃ lam, c.train env data args p = .ok ⟨.dilation lam, some p.id2col⟩ ∧
      (∀ mu, trainError s1 s2 p (trainTriples s1 s2 p data) (dilationVec n lam) ≤
        trainError s1 s2 p (trainTriples s1 s2 p data) (dilationVec n mu)) ∧
      ((∀ t ∈ trainTriples s1 s2 p data, dot n (s1.vecOf t.1) (s2.vecOf t.2.1) = 0) → lam = 2) := by
  rw [train_reduce env c data args s1 s2 p hx h1 h2 hp hv (by rw [hc]; rfl), hc]
  have hmem : ∀ t ∈ trainTriples s1 s2 p data, t.1 ∈ s1.id2row ∧ t.2.1 ∈ s2.id2row ∧ t.2.2 ∈ p.id2row :=
    fun t ht => trainTriples_mem ht
  generalize trainTriples s1 s2 p data = v at hv hmem ⊢
  simp only [CModel.trainOn]
  obtain ⟨ty, A, B, C, hS, a1, b1, c1, a2, b2, c2, hg⟩ := sampleMats_ok h1 h2 hp (by omega) (by omega) (by omega) v hv hmem
  have hpos : 0 < v.length := List.length_pos_iff.2 hv
  rw [hS]
  simp only [ok_bind]
  rw [trainDilation_ok (by omega) (by omega) (by omega) (by omega) (by omega) (by omega)]
  have e1 : ∑ k ∈ range A.nr, dot A.nc (A.get k) (B.get k) ^ 2 * dot A.nc (A.get k) (A.get k) =
      (v.map (fun t => dot n (s1.vecOf t.1) (s2.vecOf t.2.1) ^ 2 * dot n (s1.vecOf t.1) (s1.vecOf t.1))).sum := by
    rw [a1]
    refine sum_range_list v _ _ (fun k t hk => ?_)
    obtain ⟨x, y, _⟩ := hg k t hk
    rw [x, y, a2, n1]
  have e2 : ∑ k ∈ range A.nr, dot A.nc (A.get k) (B.get k) *
        dot A.nc (A.get k) (fun j => dot A.nc (A.get k) (A.get k) * B.get k j - C.get k j) =
      (v.map (fun t => dot n (s1.vecOf t.1) (s2.vecOf t.2.1) * dot n (s1.vecOf t.1)
        (fun j => dot n (s1.vecOf t.1) (s1.vecOf t.1) * s2.vecOf t.2.1 j - p.vecOf t.2.2 j))).sum := by
    rw [a1]
    refine sum_range_list v _ _ (fun k t hk => ?_)
    obtain ⟨x, y, z⟩ := hg k t hk
    rw [x, y, z, a2, n1]
  simp only [e1, e2]
  have hmin := dilation_min n v (fun t => s1.vecOf t.1) (fun t => s2.vecOf t.2.1) (fun t => p.vecOf t.2.2)
  simp only [trainError, n3]
  split
  · rename_i hne
    refine ⟨_, rfl, hmin _ (fun _ => rfl), fun hall => absurd ?_ hne⟩
    have : v.map (fun t => dot n (s1.vecOf t.1) (s2.vecOf t.2.1) ^ 2 * dot n (s1.vecOf t.1) (s1.vecOf t.1)) =
        v.map (fun _ => 0) := List.map_congr_left (fun t ht => by rw [hall t ht]; ring)
    rw [this]
    simp
  · rename_i hne
    exact ⟨2, rfl, hmin 2 (fun h => absurd h hne), fun _ => rfl⟩

/-- non-vacuity of C49 (and of the space hypotheses of C44, C48). -/
example : ∃ (s : Space ℕ) (data : List (Triple ℕ)), (ArgSpace.one s).extract = .ok (s, s) ∧ s.WF ∧ s.mat.nc = 1 ∧
    trainTriples s s s data ≠ [] ∧ dot 1 (s.vecOf 0) (s.vecOf 1) ≠ 0 := by
  obtain ⟨s, _, wf, nc, nr, rows, hvec⟩ := ones15_ok
  refine ⟨s, [(0, 1, 2)], (extract_iff _ _ _).2 (Or.inl ⟨rfl, rfl⟩), wf, nc, ?_, ?_⟩
  · unfold trainTriples
    rw [rows]
    simp
  · simp [dot, hvec]

/-- non-vacuity of C48: with 15 equal samples all chunks of two are whole except the last; with 14 all are, and a correct
pseudo-inverse of the matrix `[[14,14],[14,14]]` exists. -/
example : ∃ (s : Space ℕ) (data : List (Triple ℕ)) (P : Mat ℝ), s.WF ∧ s.mat.nc = 1 ∧
    trainTriples s s s data = data ∧ data ≠ [] ∧ (s.mat.nr / 15 + 1) ∣ data.length ∧ IsPinv (gram2 s s 1 data) P := by
  obtain ⟨s, _, wf, nc, nr, rows, hvec⟩ := ones15_ok
  refine ⟨s, [(0, 1, 2), (2, 3, 4)], Mat.of 2 2 (fun _ _ => 1 / 8), wf, nc, ?_, by simp, ?_, ?_⟩
  · unfold trainTriples
    rw [rows]
    rfl
  · rw [nr]; decide
  · have hg : gram2 s s 1 [(0, 1, 2), (2, 3, 4)] = Mat.of 2 2 (fun _ _ => 2) := by
      refine Mat.ext' rfl rfl (fun i j hi hj => ?_)
      unfold gram2
      rw [Mat.of_get_lt (show i < 2 from hi) (show j < 2 from hj), Mat.of_get_lt (show i < 2 from hi) (show j < 2 from hj)]
      simp only [dot, List.map_cons, List.map_nil, List.sum_cons, List.sum_nil, Finset.sum_range_one]
      have : ∀ i : ℕ, ∀ a b : ℕ, a < 15 → b < 15 → (if i = 0 then s.vecOf a else s.vecOf b) 0 = 1 := by
        intro i a b ha hb
        split
        · exact hvec a ha
        · exact hvec b hb
      rw [this i 0 1 (by omega) (by omega), this j 0 1 (by omega) (by omega), this i 2 3 (by omega) (by omega),
        this j 2 3 (by omega) (by omega)]
      norm_num
    rw [hg]
    refine ⟨rfl, rfl, ?_, ?_, ?_, ?_⟩ <;>
    · refine Mat.ext' rfl rfl (fun i j hi hj => ?_)
      have hi' : i < 2 := hi
      have hj' : j < 2 := hj
      simp [Mat.mul_get, Mat.of_get, Finset.sum_range_succ, hi', hj']
      try norm_num

/-! ## C44 -/

theorem predict_row (A X : Mat ℝ) (ic : Bool) (i j : ℕ) :
    predict A X ic i j = predictVec A.nc X.get ic (A.get i) j := rfl

theorem splitRows_ok (X : TMat ℝ) (n : ℕ) (hc : 0 < X.nc) (hn : 0 < n) (hr : n < X.nr) :
    ∃ A B : Mat ℝ, splitRows X n = .ok (⟨X.ty, A⟩, ⟨X.ty, B⟩) ∧ A.nr = n ∧ B.nr = X.nr - n ∧ A.nc = X.nc ∧ B.nc = X.nc ∧
      (∀ k j, k < n → A.get k j = X.val.get k j) ∧ (∀ k j, n + k < X.nr → B.get k j = X.val.get (n + k) j) := by
  have hl : ((List.range X.nr).take n).length = n := by simp; omega
  have hl' : ((List.range X.nr).drop n).length = X.nr - n := by simp
  refine ⟨X.val.selRows ((List.range X.nr).take n), X.val.selRows ((List.range X.nr).drop n), ?_, hl, hl', rfl, rfl, ?_, ?_⟩
  · unfold splitRows
    rw [TMat.wrap_ok_pos (A := X.val.selRows ((List.range X.nr).take n)) (by rw [Mat.selRows_nr, hl]; exact hn) hc,
      TMat.wrap_ok_pos (A := X.val.selRows ((List.range X.nr).drop n)) (by rw [Mat.selRows_nr, hl']; omega) hc]
    rfl
  · intro k j hk
    refine Mat.selRows_get_some ?_ j
    rw [List.getElem?_take_of_lt hk, List.getElem?_range (by omega)]
  · intro k j hk
    refine Mat.selRows_get_some ?_ j
    rw [List.getElem?_drop, List.getElem?_range hk]

/-- **C44** training and using a `FullAdditive` model: whatever learner is used, with the valid samples collected into the
rows `[u v]` and the phrase rows, if the learner returns coefficients `X` of the expected shape, then training succeeds,
the model keeps the column labels of the phrase space, and composing any data over any two spaces of the same widths
gives exactly the predictions `[u v]·X` (plus the intercept row). -/
theorem C44_full_additive (env : Env) (c : Composer κ) (at0 bt0 : Option (TMat ℝ)) (i0 : Bool) (l : Learner)
    (hc : c.model = .fullAdditive at0 bt0 i0 (some l)) (data : List (Triple κ)) (args : ArgSpace κ) (s1 s2 p : Space κ)
    (hx : args.extract = .ok (s1, s2)) (h1 : s1.WF) (h2 : s2.WF) (hp : p.WF)
    (n1 : 0 < s1.mat.nc) (n2 : 0 < s2.mat.nc) (n3 : 0 < p.mat.nc) (hv : trainTriples s1 s2 p data ≠ []) :
    ∃ ty, ∀ X : TMat ℝ,
      l.train env ⟨ty, pairRows s1 s2 (trainTriples s1 s2 p data)⟩ ⟨ty, phraseRows p (trainTriples s1 s2 p data)⟩ = .ok X →
      X.nr = (if l.hasIntercept then s1.mat.nc + s2.mat.nc + 1 else s1.mat.nc + s2.mat.nc) → X.nc = p.mat.nc →
      ∃ c', c.train env data args p = .ok c' ∧ c'.columns = some p.id2col ∧
        (∀ u v j, c'.model.vec s1.mat.nc s2.mat.nc u v j =
          predictVec (s1.mat.nc + s2.mat.nc) X.val.get l.hasIntercept (joinVec s1.mat.nc u v) j) ∧
        ∀ (args' : ArgSpace κ) (t1 t2 : Space κ) (data' : List (Triple κ)), args'.extract = .ok (t1, t2) →
          t1.WF → t2.WF → t1.mat.nc = s1.mat.nc → t2.mat.nc = s2.mat.nc → knownTriples t1 t2 data' ≠ [] →
          ((knownTriples t1 t2 data').map (·.2.2)).Nodup →
          ∃ r, (c'.compose data' args').2 = .ok r ∧ r.WF ∧ r.id2row = (knownTriples t1 t2 data').map (·.2.2) ∧
            r.id2col = p.id2col ∧ r.mat.nc = p.mat.nc ∧
            ∀ (k : ℕ) (a b phrase : κ), (knownTriples t1 t2 data')[k]? = some (a, b, phrase) → ∀ j < p.mat.nc,
              r.mat.val.get k j = predictVec (s1.mat.nc + s2.mat.nc) X.val.get l.hasIntercept
                (joinVec s1.mat.nc (t1.vecOf a) (t2.vecOf b)) j := by
  rw [train_reduce env c data args s1 s2 p hx h1 h2 hp hv (by rw [hc]; rfl), hc]
  have hmem : ∀ t ∈ trainTriples s1 s2 p data, t.1 ∈ s1.id2row ∧ t.2.1 ∈ s2.id2row ∧ t.2.2 ∈ p.id2row :=
    fun t ht => trainTriples_mem ht
  generalize trainTriples s1 s2 p data = v at hv hmem ⊢
  simp only [CModel.trainOn]
  obtain ⟨ty, A, B, C, hS, a1, b1, c1, a2, b2, c2, hg⟩ := sampleMats_ok h1 h2 hp n1 n2 n3 v hv hmem
  have hpos : 0 < v.length := List.length_pos_iff.2 hv
  have hH : A.hstack B = pairRows s1 s2 v := by
    refine Mat.ext' a1 (by show A.nc + B.nc = _; rw [a2, b2]; rfl) (fun i j hi hj => ?_)
    have hi' : i < v.length := by rw [← a1]; exact hi
    have hj' : j < s1.mat.nc + s2.mat.nc := by rw [← a2, ← b2]; exact hj
    unfold pairRows
    rw [Mat.of_get_lt hi' hj', Mat.hstack_get (a1.trans b1.symm), List.getElem?_eq_getElem hi']
    obtain ⟨x, y, _⟩ := hg i v[i] (List.getElem?_eq_getElem hi')
    rw [x, y, a2]
    rfl
  have hC : C = phraseRows p v := by
    refine Mat.ext' c1 c2 (fun i j hi hj => ?_)
    have hi' : i < v.length := by rw [← c1]; exact hi
    have hj' : j < p.mat.nc := by rw [← c2]; exact hj
    unfold phraseRows
    rw [Mat.of_get_lt hi' hj', List.getElem?_eq_getElem hi']
    obtain ⟨_, _, z⟩ := hg i v[i] (List.getElem?_eq_getElem hi')
    rw [z]
  refine ⟨ty, fun X hX hXr hXc => ?_⟩
  have hle : s1.mat.nc < X.nr := by rw [hXr]; split <;> omega
  obtain ⟨P, Q, hsp, p1, q1, p2, q2, gp, gq⟩ := splitRows_ok X s1.mat.nc (by omega) n1 hle
  have hvec : ∀ u w j, (CModel.fullAdditive (some ⟨X.ty, P⟩) (some ⟨X.ty, Q⟩) l.hasIntercept (some l)).vec
      s1.mat.nc s2.mat.nc u w j =
        predictVec (s1.mat.nc + s2.mat.nc) X.val.get l.hasIntercept (joinVec s1.mat.nc u w) j := by
    intro u w j
    simp only [CModel.vec, affineVec, predictVec, dot]
    rw [Finset.sum_range_add]
    congr 1
    · congr 1
      · refine Finset.sum_congr rfl (fun k hk => ?_)
        have hk' := Finset.mem_range.1 hk
        rw [gp k j hk', joinVec, if_pos hk', mul_comm]
      · refine Finset.sum_congr rfl (fun k hk => ?_)
        have hk' := Finset.mem_range.1 hk
        rw [gq k j (by rw [hXr]; split <;> omega), joinVec, if_neg (by omega), mul_comm,
          Nat.add_sub_cancel_left]
    · split
      · rename_i hi
        rw [if_pos hi] at hXr
        rw [gq _ j (by omega)]
      · rfl
  refine ⟨⟨.fullAdditive (some ⟨X.ty, P⟩) (some ⟨X.ty, Q⟩) l.hasIntercept (some l), some p.id2col⟩, ?_, rfl, hvec, ?_⟩
  · rw [hS]
    simp only [ok_bind, trainFull]
    rw [TMat.hstack_ok (s := ⟨ty, A⟩) (t := ⟨ty, B⟩) rfl (a1.trans b1.symm) (show 0 < A.nr by omega)
      (show 0 < A.nc + B.nc by omega)]
    simp only [ok_bind, hH, hC, hX, TMat.nc, a2]
    rw [show s1.mat.val.nc = s1.mat.nc from rfl, hsp]
    rfl
  · intro args' t1 t2 data' hx' w1 w2 m1 m2 hkn hnd
    obtain ⟨r, hr, hcomp⟩ := C38_compose (⟨.fullAdditive (some ⟨X.ty, P⟩) (some ⟨X.ty, Q⟩) l.hasIntercept (some l),
      some p.id2col⟩ : Composer κ) data' args' t1 t2 p.mat.nc hx' w1 w2
      ⟨by omega, by omega, n3, by
        refine ⟨p1.trans m1.symm, ?_, p2.trans hXc, q2.trans hXc⟩
        rw [show (⟨X.ty, Q⟩ : TMat ℝ).nr = Q.nr from rfl, q1, hXr, m2]
        split <;> omega⟩
      (by
        intro cols hcols
        injection hcols with hcols
        subst hcols
        exact ⟨hp.cols.nodup, fun hne => (hp.ncols hne).symm⟩) hkn hnd
    refine ⟨r, hr, hcomp.wf, hcomp.labels, ?_, hcomp.width, ?_⟩
    · unfold Composer.compose at hr
      split at hr
      · simp at hr
      · simp only [Option.getD_some] at hr
        obtain ⟨_, _, e3, _⟩ := Space.new_eq_ok hr
        exact e3
    · intro k a b phrase hk j hj
      have hmem' : (a, b, phrase) ∈ knownTriples t1 t2 data' := List.mem_of_getElem? hk
      rw [knownTriples, List.mem_filter] at hmem'
      have hkw : a ∈ t1.id2row ∧ b ∈ t2.id2row := by simpa using hmem'.2
      rw [hcomp.vectors k a b phrase _ _ hk (Space.hasWord_idxOf hkw.1) (Space.hasWord_idxOf hkw.2) j hj, m1, m2, hvec]
      rfl

/-- The error of a linear model on the samples is the residual of the regression problem. -/
theorem trainError_eq_sqResid (s1 s2 p : Space κ) (l : List (Triple κ)) (X : Mat ℝ) (ic : Bool) :
    trainError s1 s2 p l (fun u v => predictVec (s1.mat.nc + s2.mat.nc) X.get ic (joinVec s1.mat.nc u v)) =
      sqResid (pairRows s1 s2 l) (phraseRows p l) X ic := by
  unfold sqResid trainError
  symm
  refine sum_range_list l _ _ (fun k t hk => ?_)
  have hlt : k < l.length := by
    by_contra hcn
    rw [List.getElem?_eq_none (by omega)] at hk
    cases hk
  refine Finset.sum_congr rfl (fun j hj => ?_)
  have hj' : j < p.mat.nc := Finset.mem_range.1 hj
  rw [predict_row]
  have e1 : (phraseRows p l).get k j = p.vecOf t.2.2 j := by
    unfold phraseRows
    rw [Mat.of_get_lt hlt hj', hk]
  rw [e1]
  congr 2
  unfold predictVec
  congr 1
  refine Finset.sum_congr rfl (fun i hi => ?_)
  congr 1
  unfold pairRows
  rw [Mat.of_get_lt hlt (Finset.mem_range.1 hi), hk]

/-- **C44** a `FullAdditive` built from given matrices has no learner: training it on usable data raises
`AttributeError`. -/
theorem C44_no_learner (env : Env) (A B : TMat ℝ) (c : Composer κ) (hc : newFullAdditive A B = .ok c)
    (data : List (Triple κ)) (args : ArgSpace κ) (s1 s2 p : Space κ)
    (hx : args.extract = .ok (s1, s2)) (h1 : s1.WF) (h2 : s2.WF) (hp : p.WF)
    (n1 : 0 < s1.mat.nc) (n2 : 0 < s2.mat.nc) (n3 : 0 < p.mat.nc) (hv : trainTriples s1 s2 p data ≠ []) :
    c.train env data args p = .error .attributeError := by
  have hm : ∃ x y, c.model = .fullAdditive x y false none := by
    unfold newFullAdditive at hc
    simp only [bind_eq_ok] at hc
    obtain ⟨ab, -, x, -, y, -, he⟩ := hc
    cases he
    exact ⟨_, _, rfl⟩
  obtain ⟨x, y, hm⟩ := hm
  rw [train_reduce env c data args s1 s2 p hx h1 h2 hp hv (by rw [hm]; rfl), hm]
  have hmem : ∀ t ∈ trainTriples s1 s2 p data, t.1 ∈ s1.id2row ∧ t.2.1 ∈ s2.id2row ∧ t.2.2 ∈ p.id2row :=
    fun t ht => trainTriples_mem ht
  generalize trainTriples s1 s2 p data = v at hv hmem ⊢
  simp only [CModel.trainOn]
  obtain ⟨ty, A, B, C, hS, -⟩ := sampleMats_ok h1 h2 hp n1 n2 n3 v hv hmem
  rw [hS]
  rfl

/-- **C44** with the least-squares learner and correct back ends the trained model is optimal: no linear model with the
same kind of intercept has a smaller total squared error on the valid samples. -/
theorem C44_lstsq_optimal (env : Env) (c : Composer κ) (at0 bt0 : Option (TMat ℝ)) (i0 ic : Bool)
    (hc : c.model = .fullAdditive at0 bt0 i0 (some (.lstsq ic))) (data : List (Triple κ)) (args : ArgSpace κ)
    (s1 s2 p : Space κ) (hx : args.extract = .ok (s1, s2)) (h1 : s1.WF) (h2 : s2.WF) (hp : p.WF)
    (n1 : 0 < s1.mat.nc) (n2 : 0 < s2.mat.nc) (n3 : 0 < p.mat.nc) (hv : trainTriples s1 s2 p data ≠ [])
    (H Ph : Mat ℝ) (hH : H = pairRows s1 s2 (trainTriples s1 s2 p data))
    (hPh : Ph = phraseRows p (trainTriples s1 s2 p data))
    (hls : ∃ X, env.npLstsq (design H ic) Ph = .ok X ∧ IsLstsq (design H ic) Ph X) (P : Mat ℝ)
    (hP : env.npPinv (ridgeGram (design H ic) 0 false) = .ok P) (hpin : IsPinv (ridgeGram (design H ic) 0 false) P) :
    ∃ c', c.train env data args p = .ok c' ∧ c'.columns = some p.id2col ∧ ∀ Y : Mat ℝ,
      trainError s1 s2 p (trainTriples s1 s2 p data) (c'.model.vec s1.mat.nc s2.mat.nc) ≤
      trainError s1 s2 p (trainTriples s1 s2 p data)
        (fun u v => predictVec (s1.mat.nc + s2.mat.nc) Y.get ic (joinVec s1.mat.nc u v)) := by
  obtain ⟨ty, h⟩ := C44_full_additive env c at0 bt0 i0 (.lstsq ic) hc data args s1 s2 p hx h1 h2 hp n1 n2 n3 hv
  have hpos : 0 < (trainTriples s1 s2 p data).length := List.length_pos_iff.2 hv
  subst hH hPh
  have hX : ∃ X : TMat ℝ, (Learner.lstsq ic).train env ⟨ty, pairRows s1 s2 (trainTriples s1 s2 p data)⟩
      ⟨ty, phraseRows p (trainTriples s1 s2 p data)⟩ = .ok X ∧
      X.nr = numCoef (pairRows s1 s2 (trainTriples s1 s2 p data)) ic ∧ X.nc = p.mat.nc ∧
      ∀ Y : Mat ℝ, sqResid (pairRows s1 s2 (trainTriples s1 s2 p data)) (phraseRows p (trainTriples s1 s2 p data)) X.val ic
        ≤ sqResid (pairRows s1 s2 (trainTriples s1 s2 p data)) (phraseRows p (trainTriples s1 s2 p data)) Y ic := by
    cases ty with
    | dense =>
      obtain ⟨x, e, _, e1, e2, e3⟩ := C52_dense env ⟨.dense, pairRows s1 s2 (trainTriples s1 s2 p data)⟩
        ⟨.dense, phraseRows p (trainTriples s1 s2 p data)⟩ ic rfl rfl rfl hpos (show 0 < s1.mat.nc + s2.mat.nc by omega)
        n3 hls
      exact ⟨x, e, e1, e2, e3⟩
    | sparse =>
      obtain ⟨x, e, _, e1, e2, e3⟩ := C52_sparse env ⟨.sparse, pairRows s1 s2 (trainTriples s1 s2 p data)⟩
        ⟨.sparse, phraseRows p (trainTriples s1 s2 p data)⟩ ic rfl rfl rfl hpos (show 0 < s1.mat.nc + s2.mat.nc by omega)
        n3 P hP hpin
      exact ⟨x, e, e1, e2, e3⟩
  obtain ⟨X, e, e1, e2, e3⟩ := hX
  obtain ⟨c', hc', hcol, hvec, _⟩ := h X e e1 e2
  refine ⟨c', hc', hcol, fun Y => ?_⟩
  have hfun : c'.model.vec s1.mat.nc s2.mat.nc =
      fun u v => predictVec (s1.mat.nc + s2.mat.nc) X.val.get ic (joinVec s1.mat.nc u v) := by
    funext u v j
    exact hvec u v j
  rw [hfun, trainError_eq_sqResid, trainError_eq_sqResid]
  exact e3 Y

/-- non-vacuity of C44: one sample, all vectors `(1)`, a back end that solves this problem correctly. -/
example : ∃ (env : Env) (s : Space ℕ) (data : List (Triple ℕ)) (P : Mat ℝ), s.WF ∧ 0 < s.mat.nc ∧
    (ArgSpace.one s).extract = .ok (s, s) ∧ trainTriples s s s data = data ∧ data ≠ [] ∧
    (∃ X, env.npLstsq (design (pairRows s s data) false) (phraseRows s data) = .ok X ∧
      IsLstsq (design (pairRows s s data) false) (phraseRows s data) X) ∧
    env.npPinv (ridgeGram (design (pairRows s s data) false) 0 false) = .ok P ∧
    IsPinv (ridgeGram (design (pairRows s s data) false) 0 false) P := by
  obtain ⟨s, _, wf, nc, nr, rows, hvec⟩ := ones15_ok
  have hH : pairRows s s [(0, 1, 2)] = Mat.of 1 2 (fun _ _ => 1) := by
    refine Mat.ext' rfl (by show s.mat.nc + s.mat.nc = 2; omega) (fun i j hi hj => ?_)
    have hi' : i < 1 := hi
    have hj' : j < 2 := by rw [show (pairRows s s [(0, 1, 2)]).nc = s.mat.nc + s.mat.nc from rfl, nc] at hj; exact hj
    unfold pairRows
    rw [Mat.of_get, Mat.of_get, if_pos ⟨hi', by omega⟩, if_pos ⟨hi', hj'⟩]
    obtain rfl : i = 0 := by omega
    simp only [List.getElem?_cons_zero, joinVec, nc]
    split
    · obtain rfl : j = 0 := by omega
      exact hvec 0 (by omega)
    · obtain rfl : j = 1 := by omega
      exact hvec 1 (by omega)
  have hPh : phraseRows s [(0, 1, 2)] = Mat.of 1 1 (fun _ _ => 1) := by
    refine Mat.ext' rfl nc (fun i j hi hj => ?_)
    have hi' : i < 1 := hi
    have hj' : j < 1 := by rw [show (phraseRows s [(0, 1, 2)]).nc = s.mat.nc from rfl, nc] at hj; exact hj
    unfold phraseRows
    rw [Mat.of_get, Mat.of_get, if_pos ⟨hi', by omega⟩, if_pos ⟨hi', hj'⟩]
    obtain rfl : i = 0 := by omega
    obtain rfl : j = 0 := by omega
    exact hvec 2 (by omega)
  refine ⟨⟨fun A => .ok (A, [], A), fun A _ => .ok (A, [], A), fun _ => .ok (Mat.of 2 2 (fun _ _ => 1 / 4)),
    fun _ _ => .ok (Mat.of 2 1 (fun _ _ => 1 / 2))⟩, s, [(0, 1, 2)], Mat.of 2 2 (fun _ _ => 1 / 4), wf, by omega,
    (extract_iff _ _ _).2 (Or.inl ⟨rfl, rfl⟩), ?_, by simp, ?_, rfl, ?_⟩
  · unfold trainTriples
    rw [rows]
    rfl
  · rw [hH, hPh, design_false]
    refine ⟨_, rfl, rfl, rfl, fun Y => ?_⟩
    have : sqResid (Mat.of 1 2 (fun _ _ => 1)) (Mat.of 1 1 (fun _ _ => 1)) (Mat.of 2 1 (fun _ _ => (1 / 2 : ℝ))) false = 0 := by
      simp [sqResid, predict, Mat.of_get, Finset.sum_range_succ]
      norm_num
    rw [this]
    exact Finset.sum_nonneg fun i _ => Finset.sum_nonneg fun j _ => sq_nonneg _
  · rw [hH, design_false]
    have : ridgeGram (Mat.of 1 2 (fun _ _ => 1)) 0 false = Mat.of 2 2 (fun _ _ => 1) := by
      refine Mat.ext' rfl rfl (fun i j hi hj => ?_)
      have hi' : i < 2 := hi
      have hj' : j < 2 := hj
      unfold ridgeGram
      rw [design_false]
      simp [Mat.of_get, hi', hj', numCoef]
      rw [if_pos (by omega), if_pos (by omega)]
    rw [this]
    refine ⟨rfl, rfl, ?_, ?_, ?_, ?_⟩ <;>
    · refine Mat.ext' rfl rfl (fun i j hi hj => ?_)
      have hi' : i < 2 := hi
      have hj' : j < 2 := hj
      simp [Mat.mul_get, Mat.of_get, Finset.sum_range_succ, hi', hj']
      try norm_num

end
end Dissect
