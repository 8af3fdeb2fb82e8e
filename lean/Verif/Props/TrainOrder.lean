import Verif.Lemmas.TrainOrder
import Verif.Props.TrainCompose
import Verif.Props.Lexical

/-! # C114: the order of the training data does not matter -/

namespace Dissect
open Finset
noncomputable section
variable {κ : Type} [DecidableEq κ]

theorem trainTriples_perm {s1 s2 p : Space κ} {data data' : List (Triple κ)} (h : data.Perm data') :
    (trainTriples s1 s2 p data).Perm (trainTriples s1 s2 p data') := h.filter _

/-- Without a usable triple. -/
theorem train_nothing (env : Env) (c : Composer κ) (data : List (Triple κ)) (args : ArgSpace κ) (s1 s2 p : Space κ)
    (hx : args.extract = .ok (s1, s2)) (h1 : s1.WF) (h2 : s2.WF) (hp : p.WF) (hv : trainTriples s1 s2 p data = [])
    (hc : c.model.trainable = true) :
    c.train env data args p = .error (if data = [] then .unboundLocalError else .valueError) := by
  rw [Composer.train_shared hc]
  unfold Composer.trainShared
  rw [hx]
  simp only [ok_bind]
  rw [validData_eq _ _ _ data (trainTriples s1 s2 p data) (by rw [trainTriples_eq h1 h2 hp])]
  by_cases hd : data = []
  · rw [if_pos hd, if_pos hd]
    rfl
  · rw [if_neg hd, if_neg hd, if_pos hv]
    rfl

theorem train_perm (env : Env) (c : Composer κ) {data data' : List (Triple κ)} (hperm : data.Perm data')
    (args : ArgSpace κ) (s1 s2 p : Space κ)
    (hx : args.extract = .ok (s1, s2)) (h1 : s1.WF) (h2 : s2.WF) (hp : p.WF) (hc : c.model.trainable = true)
    (H : trainTriples s1 s2 p data ≠ [] →
      c.model.trainOn env s1 s2 p ((trainTriples s1 s2 p data).map (·.1)) ((trainTriples s1 s2 p data).map (·.2.1))
        ((trainTriples s1 s2 p data).map (·.2.2)) =
      c.model.trainOn env s1 s2 p ((trainTriples s1 s2 p data').map (·.1)) ((trainTriples s1 s2 p data').map (·.2.1))
        ((trainTriples s1 s2 p data').map (·.2.2))) :
    c.train env data args p = c.train env data' args p := by
  have hv := trainTriples_perm (s1 := s1) (s2 := s2) (p := p) hperm
  by_cases h0 : trainTriples s1 s2 p data = []
  · have h0' : trainTriples s1 s2 p data' = [] := by rw [h0] at hv; exact hv.symm.eq_nil
    rw [train_nothing env c data args s1 s2 p hx h1 h2 hp h0 hc, train_nothing env c data' args s1 s2 p hx h1 h2 hp h0' hc]
    have : data = [] ↔ data' = [] := by
      constructor
      · rintro rfl; exact hperm.symm.eq_nil
      · rintro rfl; exact hperm.eq_nil
    simp only [this]
  · have h0' : trainTriples s1 s2 p data' ≠ [] := fun h => h0 (by rw [h] at hv; exact hv.eq_nil)
    rw [train_reduce env c data args s1 s2 p hx h1 h2 hp h0 hc, train_reduce env c data' args s1 s2 p hx h1 h2 hp h0' hc, H h0]

/-- The class of the sample matrices. -/
def sampleTy (s1 s2 p : Space κ) : MTy := if s2.mat.ty = s1.mat.ty ∧ p.mat.ty = s1.mat.ty then s1.mat.ty else .dense

theorem sampleMats_rows {s1 s2 p : Space κ} (h1 : s1.WF) (h2 : s2.WF) (hp : p.WF) (n1 : 0 < s1.mat.nc)
    (n2 : 0 < s2.mat.nc) (n3 : 0 < p.mat.nc) (l : List (Triple κ)) (hl : l ≠ [])
    (hk : ∀ t ∈ l, t.1 ∈ s1.id2row ∧ t.2.1 ∈ s2.id2row ∧ t.2.2 ∈ p.id2row) :
    sampleMats s1 s2 p (l.map (·.1)) (l.map (·.2.1)) (l.map (·.2.2)) =
      .ok (⟨sampleTy s1 s2 p, rowsMat s1.mat.nc (fun t : Triple κ => s1.vecOf t.1) l⟩,
        ⟨sampleTy s1 s2 p, rowsMat s2.mat.nc (fun t : Triple κ => s2.vecOf t.2.1) l⟩,
        ⟨sampleTy s1 s2 p, rowsMat p.mat.nc (fun t : Triple κ => p.vecOf t.2.2) l⟩) := by
  obtain ⟨ty, A, B, C, hS, a1, b1, c1, a2, b2, c2, hg⟩ := sampleMats_ok h1 h2 hp n1 n2 n3 l hl hk
  have hpos : 0 < l.length := List.length_pos_iff.2 hl
  obtain ⟨r1, e1, ty1, hr1, hc1, _⟩ := C03_get_rows s1 h1 n1 (l.map (·.1)) (by simpa using hl)
    (by intro w hw; obtain ⟨t, ht, rfl⟩ := List.mem_map.1 hw; exact (hk t ht).1)
  obtain ⟨r2, e2, ty2, hr2, hc2, _⟩ := C03_get_rows s2 h2 n2 (l.map (·.2.1)) (by simpa using hl)
    (by intro w hw; obtain ⟨t, ht, rfl⟩ := List.mem_map.1 hw; exact (hk t ht).2.1)
  obtain ⟨r3, e3, ty3, hr3, hc3, _⟩ := C03_get_rows p hp n3 (l.map (·.2.2)) (by simpa using hl)
    (by intro w hw; obtain ⟨t, ht, rfl⟩ := List.mem_map.1 hw; exact (hk t ht).2.2)
  rw [List.length_map] at hr1 hr2 hr3
  have hty : ty = sampleTy s1 s2 p := by
    have hS' := hS
    unfold sampleMats at hS'
    simp only [e1, e2, e3, ok_bind] at hS'
    unfold sampleTy
    by_cases hc : s2.mat.ty = s1.mat.ty ∧ p.mat.ty = s1.mat.ty
    · rw [if_pos hc]
      have hconf : TMat.typeConflict [r1, r2, r3] = false := by
        simp [TMat.typeConflict, ty1, ty2, ty3, hc.1, hc.2]
      unfold TMat.resolveTypeConflict at hS'
      rw [hconf] at hS'
      simp only [Bool.false_eq_true, if_false, ok_bind, pure_eq_ok] at hS'
      have := ok_inj hS'
      simp only [Prod.mk.injEq] at this
      rw [← ty1, this.1]
    · rw [if_neg hc]
      have hconf : TMat.typeConflict [r1, r2, r3] = true := by
        simp only [TMat.typeConflict, List.any_cons, List.any_nil, ty1, ty2, ty3, ne_eq, not_true_eq_false, decide_false,
          Bool.false_or, Bool.or_false, Bool.or_eq_true, decide_eq_true_eq]
        by_contra hcon
        push Not at hcon
        exact hc hcon
      unfold TMat.resolveTypeConflict at hS'
      rw [hconf] at hS'
      simp only [if_true, TMat.toTypeAll, TMat.toType_ok .dense (t := r1) (fun _ => ⟨by omega, by omega⟩),
        TMat.toType_ok .dense (t := r2) (fun _ => ⟨by omega, by omega⟩),
        TMat.toType_ok .dense (t := r3) (fun _ => ⟨by omega, by omega⟩), ok_bind, pure_eq_ok] at hS'
      have := ok_inj hS'
      simp only [Prod.mk.injEq] at this
      have := congrArg TMat.ty this.1
      exact this.symm
  have hm : ∀ (M : Mat ℝ) (n : ℕ) (f : Triple κ → ℕ → ℝ), M.nr = l.length → M.nc = n →
      (∀ k t, l[k]? = some t → M.get k = f t) → M = rowsMat n f l := by
    intro M n f hr hc hget
    refine Mat.ext' hr hc (fun i j hi hj => ?_)
    have hi' : i < l.length := by omega
    rw [rowsMat_get (List.getElem?_eq_getElem hi') (by omega), hget i _ (List.getElem?_eq_getElem hi')]
  rw [hS, ← hty, hm A _ _ a1 a2 (fun k t hk => (hg k t hk).1), hm B _ _ b1 b2 (fun k t hk => (hg k t hk).2.1),
    hm C _ _ c1 c2 (fun k t hk => (hg k t hk).2.2)]

theorem dilation_trainOn (env : Env) {l0 : ℝ} {s1 s2 p : Space κ} {n : ℕ} (h1 : s1.WF) (h2 : s2.WF) (hp : p.WF) (hn : 0 < n)
    (n1 : s1.mat.nc = n) (n2 : s2.mat.nc = n) (n3 : p.mat.nc = n) (v : List (Triple κ)) (hv : v ≠ [])
    (hmem : ∀ t ∈ v, t.1 ∈ s1.id2row ∧ t.2.1 ∈ s2.id2row ∧ t.2.2 ∈ p.id2row) :
      (CModel.dilation l0).trainOn env s1 s2 p (v.map (·.1)) (v.map (·.2.1)) (v.map (·.2.2)) =
        let nom := (v.map (fun t => dot n (s1.vecOf t.1) (s2.vecOf t.2.1) ^ 2 * dot n (s1.vecOf t.1) (s1.vecOf t.1))).sum
        let denom := (v.map (fun t => dot n (s1.vecOf t.1) (s2.vecOf t.2.1) * dot n (s1.vecOf t.1)
          (fun j => dot n (s1.vecOf t.1) (s1.vecOf t.1) * s2.vecOf t.2.1 j - p.vecOf t.2.2 j))).sum
        if nom ≠ 0 then .ok (.dilation (1 - denom / nom)) else .ok (.dilation 2) := by
  simp only [CModel.trainOn]
  obtain ⟨ty, A, B, C, hS, a1, b1, c1, a2, b2, c2, hg⟩ := sampleMats_ok h1 h2 hp (by omega) (by omega) (by omega) v hv hmem
  have hpos : 0 < v.length := List.length_pos_iff.2 hv
  rw [hS]
  simp only [ok_bind]
  rw [trainDilation_ok (by omega) (by omega) (by omega) (by omega) (by omega) (by omega)]
  have e1 : ∑ k ∈ range A.nr, dot A.nc (A.get k) (B.get k) ^ 2 * dot A.nc (A.get k) (A.get k) =
      (v.map (fun t => dot n (s1.vecOf t.1) (s2.vecOf t.2.1) ^ 2 * dot n (s1.vecOf t.1) (s1.vecOf t.1))).sum := by
    rw [a1]
    refine sum_range_list v _ _ (fun k t hk => ?_)
    obtain ⟨x, y, _⟩ := hg k t hk
    rw [x, y, a2, n1]
  have e2 : ∑ k ∈ range A.nr, dot A.nc (A.get k) (B.get k) *
        dot A.nc (A.get k) (fun j => dot A.nc (A.get k) (A.get k) * B.get k j - C.get k j) =
      (v.map (fun t => dot n (s1.vecOf t.1) (s2.vecOf t.2.1) * dot n (s1.vecOf t.1)
        (fun j => dot n (s1.vecOf t.1) (s1.vecOf t.1) * s2.vecOf t.2.1 j - p.vecOf t.2.2 j))).sum := by
    rw [a1]
    refine sum_range_list v _ _ (fun k t hk => ?_)
    obtain ⟨x, y, z⟩ := hg k t hk
    rw [x, y, z, a2, n1]
  simp only [e1, e2]

/-- **C114** `Dilation`: training on the same triples in another order gives the same object (or the same exception). -/
theorem C114_dilation_partial (env : Env) (c : Composer κ) (l0 : ℝ) (hc : c.model = .dilation l0)
    (data data' : List (Triple κ)) (hperm : data.Perm data') (args : ArgSpace κ) (s1 s2 p : Space κ) (n : ℕ)
    (hx : args.extract = .ok (s1, s2)) (h1 : s1.WF) (h2 : s2.WF) (hp : p.WF) (hn : 0 < n)
    (n1 : s1.mat.nc = n) (n2 : s2.mat.nc = n) (n3 : p.mat.nc = n) :
    c.train env data args p = c.train env data' args p := by
  refine train_perm env c hperm args s1 s2 p hx h1 h2 hp (by rw [hc]; rfl) (fun h0 => ?_)
  rw [hc]
  have hv := trainTriples_perm (s1 := s1) (s2 := s2) (p := p) hperm
  have h0' : trainTriples s1 s2 p data' ≠ [] := fun h => h0 (by rw [h] at hv; exact hv.eq_nil)
  rw [dilation_trainOn env h1 h2 hp hn n1 n2 n3 _ h0 (fun t ht => trainTriples_mem ht),
    dilation_trainOn env h1 h2 hp hn n1 n2 n3 _ h0' (fun t ht => trainTriples_mem ht)]
  simp only [(hv.map _).sum_eq]

theorem dotsOf_perm {s1 s2 p : Space κ} {n : ℕ} {v v' : List (Triple κ)} (h : v.Perm v') :
    dotsOf s1 s2 p n v = dotsOf s1 s2 p n v' := by
  unfold dotsOf
  simp only [(h.map _).sum_eq]

theorem weighted_trainOn (env : Env) {a0 b0 : ℝ} {s1 s2 p : Space κ} {n : ℕ} (h1 : s1.WF) (h2 : s2.WF) (hp : p.WF) (hn : 0 < n)
    (n1 : s1.mat.nc = n) (n2 : s2.mat.nc = n) (n3 : p.mat.nc = n) (v : List (Triple κ)) (hd : (p.mat.nr / 15 + 1) ∣ v.length)
    (hmem : ∀ t ∈ v, t.1 ∈ s1.id2row ∧ t.2.1 ∈ s2.id2row ∧ t.2.2 ∈ p.id2row) :
      (CModel.weighted a0 b0).trainOn env s1 s2 p (v.map (·.1)) (v.map (·.2.1)) (v.map (·.2.2)) =
        (train2 env (dotsOf s1 s2 p n v) >>= fun r => .ok (.weighted r.1 r.2)) := by
  simp only [CModel.trainOn, trainWeighted]
  have hloop := chunkLoop_ok h1 h2 hp hn n1 n2 n3 v hmem (chunkSize p.mat.nr)
    (by unfold chunkSize; omega) (v.length / chunkSize p.mat.nr) 0
    (by rw [Nat.zero_add]; exact Nat.div_mul_le_self _ _)
  have hz : dotsOf s1 s2 p n (v.take (0 * chunkSize p.mat.nr)) = ⟨0, 0, 0, 0, 0⟩ := by
    rw [Nat.zero_mul]; rfl
  rw [hz, Nat.zero_add, Nat.div_mul_cancel (by exact hd), List.take_length] at hloop
  rw [List.length_map, List.range_eq_range', hloop]
  simp only [ok_bind]
  rfl

/-- **C114** `WeightedAdditive`, when the chunk size divides the number of usable triples (for example always when the
phrase space has fewer than 15 rows). -/
theorem C114_weighted_partial (env : Env) (c : Composer κ) (a0 b0 : ℝ) (hc : c.model = .weighted a0 b0)
    (data data' : List (Triple κ)) (hperm : data.Perm data') (args : ArgSpace κ) (s1 s2 p : Space κ) (n : ℕ)
    (hx : args.extract = .ok (s1, s2)) (h1 : s1.WF) (h2 : s2.WF) (hp : p.WF) (hn : 0 < n)
    (n1 : s1.mat.nc = n) (n2 : s2.mat.nc = n) (n3 : p.mat.nc = n)
    (hdvd : (p.mat.nr / 15 + 1) ∣ (trainTriples s1 s2 p data).length) :
    c.train env data args p = c.train env data' args p := by
  refine train_perm env c hperm args s1 s2 p hx h1 h2 hp (by rw [hc]; rfl) (fun h0 => ?_)
  rw [hc]
  have hv := trainTriples_perm (s1 := s1) (s2 := s2) (p := p) hperm
  rw [weighted_trainOn env h1 h2 hp hn n1 n2 n3 _ hdvd (fun t ht => trainTriples_mem ht),
    weighted_trainOn env h1 h2 hp hn n1 n2 n3 _ (by rw [← hv.length_eq]; exact hdvd)
    (fun t ht => trainTriples_mem ht), dotsOf_perm hv]

theorem hstack_rows (n1 n2 : ℕ) (f g : Triple κ → ℕ → ℝ) (v : List (Triple κ)) :
    (rowsMat n1 f v).hstack (rowsMat n2 g v) = rowsMat (n1 + n2) (fun t => joinVec n1 (f t) (g t)) v := by
  refine Mat.ext' rfl rfl (fun i j hi hj => ?_)
  have hi' : i < v.length := hi
  have hj' : j < n1 + n2 := hj
  rw [rowsMat_get (List.getElem?_eq_getElem hi') hj', Mat.hstack_get (A := rowsMat n1 f v) (B := rowsMat n2 g v) rfl]
  show (if j < n1 then _ else _) = _
  unfold joinVec
  split
  · rename_i h
    rw [rowsMat_get (List.getElem?_eq_getElem hi') h]
  · rw [show (rowsMat n1 f v).nc = n1 from rfl, rowsMat_get (List.getElem?_eq_getElem hi') (by omega)]

theorem full_trainOn (env : Env) {at0 bt0 : Option (TMat ℝ)} {i0 : Bool} {l : Learner} {s1 s2 p : Space κ} (h1 : s1.WF)
    (h2 : s2.WF) (hp : p.WF) (n1 : 0 < s1.mat.nc) (n2 : 0 < s2.mat.nc) (n3 : 0 < p.mat.nc) (v : List (Triple κ)) (hv : v ≠ [])
    (hmem : ∀ t ∈ v, t.1 ∈ s1.id2row ∧ t.2.1 ∈ s2.id2row ∧ t.2.2 ∈ p.id2row) :
      (CModel.fullAdditive at0 bt0 i0 (some l)).trainOn env s1 s2 p (v.map (·.1)) (v.map (·.2.1)) (v.map (·.2.2)) =
        (l.train env ⟨sampleTy s1 s2 p, rowsMat (s1.mat.nc + s2.mat.nc)
            (fun t => joinVec s1.mat.nc (s1.vecOf t.1) (s2.vecOf t.2.1)) v⟩
          ⟨sampleTy s1 s2 p, rowsMat p.mat.nc (fun t : Triple κ => p.vecOf t.2.2) v⟩ >>= fun r =>
        splitRows r s1.mat.nc >>= fun q => .ok (.fullAdditive (some q.1) (some q.2) l.hasIntercept (some l))) := by
  have hpos : 0 < v.length := List.length_pos_iff.2 hv
  simp only [CModel.trainOn]
  rw [sampleMats_rows h1 h2 hp n1 n2 n3 v hv hmem]
  simp only [ok_bind, trainFull]
  rw [TMat.hstack_ok (s := ⟨sampleTy s1 s2 p, rowsMat s1.mat.nc (fun t : Triple κ => s1.vecOf t.1) v⟩)
    (t := ⟨sampleTy s1 s2 p, rowsMat s2.mat.nc (fun t : Triple κ => s2.vecOf t.2.1) v⟩) rfl rfl hpos
    (show 0 < s1.mat.nc + s2.mat.nc by omega)]
  simp only [ok_bind, hstack_rows]
  rfl

/-- **C114** `FullAdditive`: with a ridge learner (also with cross validation) always; and for sparse spaces
always; with the least-squares learner on dense spaces when numpy's `lstsq` keeps what it documents. -/
theorem C114_full_additive_partial (env : Env) (c : Composer κ) (at0 bt0 : Option (TMat ℝ)) (i0 : Bool) (l : Learner)
    (hc : c.model = .fullAdditive at0 bt0 i0 (some l)) (data data' : List (Triple κ)) (hperm : data.Perm data')
    (args : ArgSpace κ) (s1 s2 p : Space κ) (hx : args.extract = .ok (s1, s2)) (h1 : s1.WF) (h2 : s2.WF) (hp : p.WF)
    (n1 : 0 < s1.mat.nc) (n2 : 0 < s2.mat.nc) (n3 : 0 < p.mat.nc)
    (hls : ∀ ic, l = .lstsq ic →
      (s1.mat.ty = .sparse ∧ s2.mat.ty = .sparse ∧ p.mat.ty = .sparse) ∨
      (∀ v : List (Triple κ), v.Perm (trainTriples s1 s2 p data) →
        let X := rowsMat (s1.mat.nc + s2.mat.nc) (fun t => joinVec s1.mat.nc (s1.vecOf t.1) (s2.vecOf t.2.1)) v
        let Y := rowsMat p.mat.nc (fun t => p.vecOf t.2.2) v
        ∃ Z, env.npLstsq (design X ic) Y = .ok Z ∧ IsMinNormLstsq (design X ic) Y Z)) :
    c.train env data args p = c.train env data' args p := by
  refine train_perm env c hperm args s1 s2 p hx h1 h2 hp (by rw [hc]; rfl) (fun h0 => ?_)
  rw [hc]
  have hv := trainTriples_perm (s1 := s1) (s2 := s2) (p := p) hperm
  have h0' : trainTriples s1 s2 p data' ≠ [] := fun h => h0 (by rw [h] at hv; exact hv.eq_nil)
  rw [full_trainOn env h1 h2 hp n1 n2 n3 _ h0 (fun t ht => trainTriples_mem ht),
    full_trainOn env h1 h2 hp n1 n2 n3 _ h0' (fun t ht => trainTriples_mem ht),
    learner_perm env hv h0 (sampleTy s1 s2 p) (by omega) n3 _ _ l ?_]
  intro ic hl hty
  rcases hls ic hl with ⟨a, b, d⟩ | b
  · unfold sampleTy at hty
    rw [a, b, d] at hty
    simp at hty
  · exact b

/-! ## Lexical functions -/

theorem eq_rowsMat {M : Mat ℝ} {n : ℕ} {l : List (Triple κ)} {f : Triple κ → ℕ → ℝ} (hr : M.nr = l.length) (hc : M.nc = n)
    (hget : ∀ k t, l[k]? = some t → M.get k = f t) : M = rowsMat n f l := by
  refine Mat.ext' hr hc (fun i j hi hj => ?_)
  have hi' : i < l.length := by omega
  rw [rowsMat_get (List.getElem?_eq_getElem hi') (by omega), hget i _ (List.getElem?_eq_getElem hi')]

theorem lexTrainOne_eq (env : Env) (l : Learner) {arg phrase : Space κ} (ha : arg.WF) (hp : phrase.WF)
    (na : 0 < arg.mat.nc) (np : 0 < phrase.mat.nc) (S : List (Triple κ)) (hS : S ≠ [])
    (hmem : ∀ t ∈ S, t.2.1 ∈ arg.id2row ∧ t.2.2 ∈ phrase.id2row) (size : ℕ) :
    lexTrainOne env l arg phrase (S.map (·.2.1)) (S.map (·.2.2)) size =
      (l.train env ⟨lexTy arg phrase, rowsMat arg.mat.nc (fun t => arg.vecOf t.2.1) S⟩
        ⟨lexTy arg phrase, rowsMat phrase.mat.nc (fun t => phrase.vecOf t.2.2) S⟩ >>= fun x =>
        x.transpose >>= fun xt => xt.reshape 1 size >>= fun r => .ok (r, lexTy arg phrase)) := by
  obtain ⟨A, ea, a1, a2, ga⟩ := rows_eq ha na S hS (·.2.1) (fun t ht => (hmem t ht).1)
  obtain ⟨P, ep, p1, p2, gp⟩ := rows_eq hp np S hS (·.2.2) (fun t ht => (hmem t ht).2)
  have hpos : 0 < S.length := List.length_pos_iff.2 hS
  have hA : A = rowsMat arg.mat.nc (fun t => arg.vecOf t.2.1) S := eq_rowsMat a1 a2 ga
  have hP : P = rowsMat phrase.mat.nc (fun t => phrase.vecOf t.2.2) S := eq_rowsMat p1 p2 gp
  unfold lexTrainOne
  rw [ea, ok_bind, ep, ok_bind, resolve_largest ⟨arg.mat.ty, A⟩ ⟨phrase.mat.ty, P⟩
    ⟨show 0 < A.nr by omega, show 0 < A.nc by omega⟩ ⟨show 0 < P.nr by omega, show 0 < P.nc by omega⟩ (a1.trans p1.symm),
    ok_bind]
  simp only
  have ht : (if (⟨arg.mat.ty, A⟩ : TMat ℝ).nc < (⟨phrase.mat.ty, P⟩ : TMat ℝ).nc then phrase.mat.ty else arg.mat.ty) =
      lexTy arg phrase := by
    unfold lexTy
    rw [show (⟨arg.mat.ty, A⟩ : TMat ℝ).nc = arg.mat.nc from a2, show (⟨phrase.mat.ty, P⟩ : TMat ℝ).nc = phrase.mat.nc from p2]
  rw [ht, hA, hP]
  rfl

theorem lexTrainLoop_congr (env : Env) (l : Learner) (arg phrase : Space κ) (v v' : List (Triple κ)) (size : ℕ)
    (ranges : List (ℕ × ℕ))
    (h : ∀ r ∈ ranges, lexTrainOne env l arg phrase (((v.take r.2).drop r.1).map (·.2.1)) (((v.take r.2).drop r.1).map (·.2.2)) size =
      lexTrainOne env l arg phrase (((v'.take r.2).drop r.1).map (·.2.1)) (((v'.take r.2).drop r.1).map (·.2.2)) size) :
    lexTrainLoop env l arg phrase (v.map (·.2.1)) (v.map (·.2.2)) size ranges =
      lexTrainLoop env l arg phrase (v'.map (·.2.1)) (v'.map (·.2.2)) size ranges := by
  induction ranges with
  | nil => rfl
  | cons r ranges ih =>
    have h0 := h r (by simp)
    unfold lexTrainLoop
    simp only [slice, slice_map]
    rw [h0, ih (fun r hr => h r (by simp [hr]))]

/-- **C114** `LexicalFunction`: training on the same triples in another order gives the same object (or the same
exception), with a ridge learner always, also when the regression problems are sparse, and with the least-squares learner
on dense spaces when numpy's `lstsq` keeps what it documents. -/
theorem C114_lexical_partial (env : Env) (le : κ → κ → Bool)
    (htrans : ∀ a b c, le a b = true → le b c = true → le a c = true)
    (htotal : ∀ a b, (le a b || le b a) = true) (hanti : ∀ a b, le a b = true → le b a = true → a = b)
    (m : LexFun κ) (data data' : List (Triple κ)) (hperm : data.Perm data') (arg phrase : Space κ)
    (ha : arg.WF) (hp : phrase.WF) (na : 0 < arg.mat.nc) (np : 0 < phrase.mat.nc) (hms : 1 ≤ m.minSamples)
    (hls : ∀ ic, m.learner = .lstsq ic → lexTy arg phrase = .dense →
      ∀ f, m.minSamples ≤ ((lexSamples arg phrase data f).length : ℤ) →
        ∀ v : List (Triple κ), v.Perm (lexSamples arg phrase data f) →
          let X := rowsMat arg.mat.nc (fun t => arg.vecOf t.2.1) v
          let Y := rowsMat phrase.mat.nc (fun t => phrase.vecOf t.2.2) v
          ∃ Z, env.npLstsq (design X ic) Y = .ok Z ∧ IsMinNormLstsq (design X ic) Y Z) :
    m.train env le data arg phrase = m.train env le data' arg phrase := by
  set V : List (Triple κ) → List (Triple κ) := fun d => (d.mergeSort (fun x y => le x.1 y.1)).filter (fun t =>
      knownIn none t.1 && knownIn (some arg.row2id) t.2.1 && knownIn (some phrase.row2id) t.2.2) with hV
  have hsamp : ∀ d f, (V d).filter (fun t => decide (t.1 = f)) = lexSamples arg phrase d f := fun d =>
    sorted_samples htrans htotal ha hp d
  have hsort : ∀ d, ((V d).map (·.1)).Pairwise (fun a b => le a b = true) := by
    intro d
    rw [List.pairwise_map]
    exact (List.pairwise_mergeSort (le := fun x y : Triple κ => le x.1 y.1) (fun a b c => htrans _ _ _)
      (fun a b => htotal _ _) d).filter _
  have hsp : (data.mergeSort (fun x y => le x.1 y.1)).Perm (data'.mergeSort (fun x y => le x.1 y.1)) :=
    (List.mergeSort_perm _ _).trans (hperm.trans (List.mergeSort_perm _ _).symm)
  have hvp : (V data).Perm (V data') := hsp.filter _
  have hkeys : (V data).map (·.1) = (V data').map (·.1) :=
    List.Perm.eq_of_pairwise (fun a b _ _ h1 h2 => hanti a b h1 h2) (hsort data) (hsort data') (hvp.map _)
  obtain ⟨keys, ranges, g1, g2, g3, g4, g5, g6⟩ := partitions_sorted hanti (V data) (hsort data) m.minSamples hms
  obtain ⟨keys', ranges', g1', g2', g3', g4', g5', g6'⟩ := partitions_sorted hanti (V data') (hsort data') m.minSamples hms
  have hsame : keys' = keys ∧ ranges' = ranges := by
    rw [← hkeys, g1] at g1'
    have := ok_inj g1'
    simp only [Prod.mk.injEq] at this
    exact ⟨this.1.symm, this.2.symm⟩
  obtain ⟨rfl, rfl⟩ := hsame
  have hmemv : ∀ d, ∀ t ∈ lexSamples arg phrase d t.1, t.2.1 ∈ arg.id2row ∧ t.2.2 ∈ phrase.id2row := by
    intro d t ht
    rw [lexSamples, List.mem_filter, decide_eq_true_eq] at ht
    exact ht.2.2
  have hloop : ∀ size, lexTrainLoop env m.learner arg phrase ((V data).map (·.2.1)) ((V data).map (·.2.2)) size ranges' =
      lexTrainLoop env m.learner arg phrase ((V data').map (·.2.1)) ((V data').map (·.2.2)) size ranges' := by
    intro size
    refine lexTrainLoop_congr env m.learner arg phrase _ _ size ranges' (fun r hr => ?_)
    obtain ⟨i, hi, hri⟩ := List.mem_iff_getElem.1 hr
    have hik : i < keys'.length := by omega
    have hr' : ranges'[i]? = some r := by rw [List.getElem?_eq_getElem hi, hri]
    rw [g6 i r keys'[i] hr' (List.getElem?_eq_getElem hik), g6' i r keys'[i] hr' (List.getElem?_eq_getElem hik)]
    set f := keys'[i] with hf
    have hcount := (g5 f).1 (List.getElem_mem hik)
    rw [hsamp] at hcount
    rw [hsamp, hsamp]
    have hfp : (lexSamples arg phrase data f).Perm (lexSamples arg phrase data' f) := hperm.filter _
    have hne : lexSamples arg phrase data f ≠ [] := by
      intro h
      rw [h] at hcount
      simp at hcount
      omega
    have hne' : lexSamples arg phrase data' f ≠ [] := fun h => hne (by rw [h] at hfp; exact hfp.eq_nil)
    have hm : ∀ d, ∀ t ∈ lexSamples arg phrase d f, t.2.1 ∈ arg.id2row ∧ t.2.2 ∈ phrase.id2row := by
      intro d t ht
      rw [lexSamples, List.mem_filter, decide_eq_true_eq] at ht
      exact ht.2.2
    rw [lexTrainOne_eq env m.learner ha hp na np _ hne (hm data) size,
      lexTrainOne_eq env m.learner ha hp na np _ hne' (hm data') size,
      learner_perm env hfp hne (lexTy arg phrase) na np _ _ m.learner
        (fun ic hl hty => hls ic hl hty f hcount)]
  have hnil : data.mergeSort (fun x y => le x.1 y.1) = [] ↔ data'.mergeSort (fun x y => le x.1 y.1) = [] := by
    constructor
    · intro h; rw [h] at hsp; exact hsp.symm.eq_nil
    · intro h; rw [h] at hsp; exact hsp.eq_nil
  have hvnil : V data = [] ↔ V data' = [] := by
    constructor
    · intro h; rw [h] at hvp; exact hvp.symm.eq_nil
    · intro h; rw [h] at hvp; exact hvp.eq_nil
  unfold LexFun.train
  simp only
  rw [validData_eq none (some arg.row2id) (some phrase.row2id) _ (V data) rfl,
    validData_eq none (some arg.row2id) (some phrase.row2id) _ (V data') rfl]
  by_cases h1 : data'.mergeSort (fun x y => le x.1 y.1) = []
  · rw [if_pos h1, if_pos (hnil.2 h1)]
  · rw [if_neg h1, if_neg (fun h => h1 (hnil.1 h))]
    by_cases h2 : V data' = []
    · rw [if_pos h2, if_pos (hvnil.2 h2)]
    · rw [if_neg h2, if_neg (fun h => h2 (hvnil.1 h))]
      simp only [ok_bind]
      rw [g1, ← hkeys, g1]
      simp only [ok_bind, hloop]

/-! ## Refutation and non-vacuity -/

/-- The matrix `[[1, 0], [0, 0]]`. -/
def corner2 : Mat ℝ := Mat.of 2 2 (fun i j => if i = 0 ∧ j = 0 then 1 else 0)

theorem corner2_get (i j : ℕ) : corner2.get i j = if i = 0 ∧ j = 0 then 1 else 0 := by
  unfold corner2
  rw [Mat.of_get]
  split
  · rfl
  · rename_i h
    rw [if_neg (by omega)]

theorem corner2_mul_corner2 : corner2.mul corner2 = corner2 := by
  refine Mat.ext_get rfl rfl (fun i j => ?_)
  rw [Mat.mul_get, show corner2.nc = 2 from rfl, Finset.sum_range_succ, Finset.sum_range_one, corner2_get, corner2_get,
    corner2_get, corner2_get, corner2_get]
  by_cases hi : i = 0 <;> by_cases hj : j = 0 <;> simp [hi, hj]

theorem corner2_pinv : IsPinv corner2 corner2 := by
  have ht : corner2.transpose = corner2 := by
    refine Mat.ext_get rfl rfl (fun i j => ?_)
    rw [Mat.transpose_get, corner2_get, corner2_get]
    by_cases hi : i = 0 <;> by_cases hj : j = 0 <;> simp [hi, hj]
  exact ⟨rfl, rfl, by rw [corner2_mul_corner2, corner2_mul_corner2], by rw [corner2_mul_corner2, corner2_mul_corner2],
    by rw [corner2_mul_corner2, ht], by rw [corner2_mul_corner2, ht]⟩

theorem pinv_corner2 {Q : Mat ℝ} (h : IsPinv corner2 Q) : Q.get 0 0 = 1 ∧ Q.get 1 0 = 0 := by
  have hr : Q.nr = 2 := h.nr
  have hc : Q.nc = 2 := h.nc
  have e1 := congrArg (fun M : Mat ℝ => M.get 0 0) h.one
  have e4 := congrArg (fun M : Mat ℝ => M.get 0 1) h.four
  simp only [Mat.mul_get, Mat.transpose_get, show corner2.nc = 2 from rfl, show (corner2.mul Q).nc = Q.nc from rfl, hc,
    Finset.sum_range_succ, Finset.sum_range_one, corner2_get] at e1 e4
  simp at e1 e4
  exact ⟨e1, e4⟩

/-- **C114** is false for `WeightedAdditive` as soon as the phrase space has 15 rows: only whole chunks are looked at, so
the order decides which triples are ignored. For every back end with correct pseudo-inverses of two 2×2 matrices, the same
three triples in two orders give the parameters (0, 0) and (1, 0). -/
theorem C114_weighted_refuted (env : Env) (P Q : Mat ℝ) (hP : env.npPinv zero2 = .ok P) (hpin : IsPinv zero2 P)
    (hQ : env.npPinv corner2 = .ok Q) (hpin' : IsPinv corner2 Q) :
    ∃ (c : Composer ℕ) (s : Space ℕ) (data data' : List (Triple ℕ)), newWeighted .absent .absent = .ok c ∧ s.WF ∧
      data.Perm data' ∧ trainTriples s s s data = data ∧
      c.train env data (.one s) s = .ok ⟨.weighted 0 0, some s.id2col⟩ ∧
      c.train env data' (.one s) s = .ok ⟨.weighted 1 0, some s.id2col⟩ := by
  obtain ⟨s, wf, hm, rows, cols, _⟩ := exists_space (Mat.of 15 1 (fun i _ => if i = 1 then (1 : ℝ) else 0)) (List.range 15)
    List.nodup_range (by simp) none (by simp)
  have nc : s.mat.nc = 1 := by rw [hm]; rfl
  have nr : s.mat.nr = 15 := by rw [hm]; rfl
  have hvec : ∀ w, w < 15 → s.vecOf w 0 = if w = 1 then 1 else 0 := by
    intro w hw
    unfold Space.vecOf
    rw [hm, rows]
    have h2 : (List.range 15).idxOf w = w := by
      have := List.Nodup.idxOf_getElem (List.nodup_range (n := 15)) w (by simpa using hw)
      simpa using this
    rw [h2, Mat.of_get_lt hw (by omega)]
  set d1 : List (Triple ℕ) := [(0, 0, 0), (0, 0, 2), (1, 0, 1)] with hd1
  set d2 : List (Triple ℕ) := [(1, 0, 1), (0, 0, 0), (0, 0, 2)] with hd2
  have t1 : trainTriples s s s d1 = d1 := by unfold trainTriples; rw [rows]; rfl
  have t2 : trainTriples s s s d2 = d2 := by unfold trainTriples; rw [rows]; rfl
  have u1 : usedSamples s d1 = [(0, 0, 0), (0, 0, 2)] := by unfold usedSamples; rw [nr]; simp [hd1, hd2]
  have u2 : usedSamples s d2 = [(1, 0, 1), (0, 0, 0)] := by unfold usedSamples; rw [nr]; simp [hd1, hd2]
  have v0 := hvec 0 (by omega)
  have v1 := hvec 1 (by omega)
  have v2 := hvec 2 (by omega)
  simp only [if_true, show ¬ (0 = 1) by omega, show ¬ (2 = 1) by omega, if_false] at v0 v1 v2
  have g1 : gram2 s s 1 (usedSamples s d1) = zero2 := by
    rw [u1]
    refine Mat.ext' rfl rfl (fun i j hi hj => ?_)
    have hi' : i < 2 := hi
    have hj' : j < 2 := hj
    unfold gram2 zero2
    rw [Mat.of_get_lt hi' hj', Mat.of_get_lt hi' hj']
    simp [dot, v0]
  have g2 : gram2 s s 1 (usedSamples s d2) = corner2 := by
    rw [u2]
    refine Mat.ext' rfl rfl (fun i j hi hj => ?_)
    have hi' : i < 2 := hi
    have hj' : j < 2 := hj
    unfold gram2 corner2
    rw [Mat.of_get_lt hi' hj', Mat.of_get_lt hi' hj']
    by_cases h1 : i = 0 <;> by_cases h2 : j = 0 <;> simp [dot, v0, v1, h1, h2]
  refine ⟨⟨.weighted (1 / 2) (1 / 2), none⟩, s, d1, d2, rfl, wf, ?_, t1, ?_, ?_⟩
  · rw [hd1, hd2]; decide
  · have := trainWeighted_ok env (⟨.weighted (1 / 2) (1 / 2), none⟩ : Composer ℕ) _ _ rfl d1 (.one s) s s s 1
      ((extract_iff _ _ _).2 (Or.inl ⟨rfl, rfl⟩)) wf wf wf Nat.one_pos nc nc nc (by rw [t1]; simp [hd1]) P
      (by rw [t1, g1]; exact hP) hpin.nc
    rw [this]
    have hz := pinv_zero (Z := zero2) (by intro i j; simp [zero2, Mat.of_get]) hpin
    simp [hz]
  · have := trainWeighted_ok env (⟨.weighted (1 / 2) (1 / 2), none⟩ : Composer ℕ) _ _ rfl d2 (.one s) s s s 1
      ((extract_iff _ _ _).2 (Or.inl ⟨rfl, rfl⟩)) wf wf wf Nat.one_pos nc nc nc (by rw [t2]; simp [hd2]) Q
      (by rw [t2, g2]; exact hQ) hpin'.nc
    rw [this, t2, u2]
    obtain ⟨q1, q2⟩ := pinv_corner2 hpin'
    simp [dotsOf, dot, v0, v1, q1, q2]

/-- non-vacuity of C114_weighted_refuted: such a back end exists. -/
example : ∃ (env : Env) (P Q : Mat ℝ), env.npPinv zero2 = .ok P ∧ IsPinv zero2 P ∧ env.npPinv corner2 = .ok Q ∧
    IsPinv corner2 Q :=
  ⟨⟨fun A => .ok (A, [], A), fun A _ => .ok (A, [], A), fun A => .ok A, fun A _ => .ok A⟩, zero2, corner2, rfl, zero2_pinv, rfl,
    corner2_pinv⟩

/-- non-vacuity of C114_dilation_partial and C114_weighted_partial: a space with fewer than 15 words. -/
example : ∃ (s : Space ℕ) (data data' : List (Triple ℕ)), s.WF ∧ s.mat.nc = 1 ∧ data.Perm data' ∧ data ≠ data' ∧
    (s.mat.nr / 15 + 1) ∣ (trainTriples s s s data).length ∧ (trainTriples s s s data).length = 2 := by
  obtain ⟨s, s1, s2, s3, s4, s5⟩ := exists_space (Mat.of 4 1 (fun i _ => (i : ℝ))) [0, 1, 2, 3] (by simp) rfl none (by simp)
  have h : trainTriples s s s [(0, 1, 2), (5, 5, 5), (1, 2, 3)] = [(0, 1, 2), (1, 2, 3)] := by
    unfold trainTriples; rw [s3]; rfl
  refine ⟨s, [(0, 1, 2), (5, 5, 5), (1, 2, 3)], [(1, 2, 3), (0, 1, 2), (5, 5, 5)], s1, by rw [s2]; rfl, by decide, by decide,
    ?_, by rw [h]; rfl⟩
  rw [h, show s.mat.nr = 4 by rw [s2]; rfl]
  decide

/-- A back end whose least-squares solver always answers the column `(1/2, 1/2)`. -/
def halvesEnv : Env :=
  ⟨fun A => .ok (A, [], A), fun A _ => .ok (A, [], A), fun A => .ok A, fun _ _ => .ok (Mat.of 2 1 (fun _ _ => 1 / 2))⟩

/-- non-vacuity of C114_full_additive_partial: for a space of vectors `(1)` this is the shortest solution of all problems
that occur; the pair matrix `[1 1; 1 1; ...]` does not have full rank. -/
example : ∃ (env : Env) (s : Space ℕ) (data data' : List (Triple ℕ)), s.WF ∧ s.mat.nc = 1 ∧ s.mat.ty = .dense ∧
    data.Perm data' ∧ data ≠ data' ∧ (trainTriples s s s data).length = 2 ∧
    ∀ v : List (Triple ℕ), v.Perm (trainTriples s s s data) →
      let X := rowsMat (s.mat.nc + s.mat.nc) (fun t => joinVec s.mat.nc (s.vecOf t.1) (s.vecOf t.2.1)) v
      let Y := rowsMat s.mat.nc (fun t => s.vecOf t.2.2) v
      ∃ Z, env.npLstsq (design X false) Y = .ok Z ∧ IsMinNormLstsq (design X false) Y Z := by
  obtain ⟨s, s1, s2, s3, s4, s5⟩ := exists_space (Mat.of 4 1 (fun _ _ => (1 : ℝ))) [0, 1, 2, 3] (by simp) rfl none (by simp)
  have hnc : s.mat.nc = 1 := by rw [s2]; rfl
  have h : trainTriples s s s [(0, 1, 2), (5, 5, 5), (1, 2, 3)] = [(0, 1, 2), (1, 2, 3)] := by
    unfold trainTriples; rw [s3]; rfl
  have hv : ∀ w ∈ s.id2row, s.vecOf w 0 = 1 := by
    intro w hw
    unfold Space.vecOf
    rw [s2]
    have : s.id2row.idxOf w < s.id2row.length := List.idxOf_lt_length_of_mem hw
    rw [s3] at this ⊢
    exact Mat.of_get_lt this Nat.one_pos
  refine ⟨halvesEnv, s, [(0, 1, 2), (5, 5, 5), (1, 2, 3)], [(1, 2, 3), (0, 1, 2), (5, 5, 5)], s1, hnc, by rw [s2], by decide,
    by decide, by rw [h]; rfl, ?_⟩
  rw [h]
  intro v hperm X Y
  have hvne : v ≠ [] := fun h => by rw [h] at hperm; simpa using hperm.length_eq
  have hmem : ∀ t ∈ v, t.1 ∈ s.id2row ∧ t.2.1 ∈ s.id2row ∧ t.2.2 ∈ s.id2row := by
    intro t ht
    have := hperm.mem_iff.1 ht
    rw [s3]
    simp only [List.mem_cons, List.not_mem_nil, or_false] at this
    rcases this with rfl | rfl <;> simp
  have hres : ∀ Z : Mat ℝ, sqResid (design X false) Y Z false = (v.map (fun _ => (Z.get 0 0 + Z.get 1 0 - 1) ^ 2)).sum := by
    intro Z
    rw [sqResid_design, sqResid_rows]
    congr 1
    refine List.map_congr_left (fun t ht => ?_)
    obtain ⟨m1, m2, m3⟩ := hmem t ht
    rw [hnc]
    simp [predictVec, Finset.sum_range_succ, joinVec, hv _ m1, hv _ m2, hv _ m3]
  have hhalf : ∀ i, i < 2 → (Mat.of 2 1 (fun _ _ => (1 / 2 : ℝ))).get i 0 = 1 / 2 := fun i hi =>
    Mat.of_get_lt hi Nat.one_pos
  have hzero : sqResid (design X false) Y (Mat.of 2 1 (fun _ _ => (1 / 2 : ℝ))) false = 0 := by
    rw [hres, hhalf 0 (by omega), hhalf 1 (by omega)]
    norm_num
  refine ⟨_, rfl, ⟨by show 2 = s.mat.nc + s.mat.nc; omega, hnc.symm, fun Z => ?_⟩, fun Z z1 z2 hZ => ?_⟩
  · rw [hzero]
    exact Finset.sum_nonneg (fun i _ => Finset.sum_nonneg (fun j _ => sq_nonneg _))
  · rw [hzero, hres] at hZ
    have z1' : Z.nr = 2 := z1
    have z2' : Z.nc = 1 := z2
    have hsum : Z.get 0 0 + Z.get 1 0 = 1 := by
      have hpos : 0 < v.length := List.length_pos_iff.2 hvne
      rw [List.map_const', List.sum_replicate, nsmul_eq_mul] at hZ
      have hl : (0 : ℝ) < v.length := by exact_mod_cast hpos
      have h0 : (Z.get 0 0 + Z.get 1 0 - 1) ^ 2 ≤ 0 := by
        by_contra hcon
        have := mul_pos hl (not_le.1 hcon)
        linarith
      have := pow_eq_zero_iff (two_ne_zero) |>.1 (le_antisymm h0 (sq_nonneg _))
      linarith
    have f1 : frobSq (Mat.of 2 1 (fun _ _ => (1 / 2 : ℝ))) = 1 / 2 := by
      unfold frobSq
      rw [show (Mat.of 2 1 (fun _ _ => (1 / 2 : ℝ))).nr = 2 from rfl, show (Mat.of 2 1 (fun _ _ => (1 / 2 : ℝ))).nc = 1 from rfl,
        Finset.sum_range_succ, Finset.sum_range_one, Finset.sum_range_one, Finset.sum_range_one, hhalf 0 (by omega),
        hhalf 1 (by omega)]
      norm_num
    have f2 : frobSq Z = Z.get 0 0 ^ 2 + Z.get 1 0 ^ 2 := by
      unfold frobSq
      rw [z1', z2', Finset.sum_range_succ, Finset.sum_range_one, Finset.sum_range_one, Finset.sum_range_one]
    rw [f1, f2]
    nlinarith [sq_nonneg (Z.get 0 0 - Z.get 1 0)]

/-- non-vacuity of C114_lexical_partial: two function words, a threshold, unsorted data (with a ridge learner). -/
example : ∃ (le : ℕ → ℕ → Bool) (m : LexFun ℕ) (data data' : List (Triple ℕ)) (s : Space ℕ),
    (∀ a b c, le a b = true → le b c = true → le a c = true) ∧ (∀ a b, (le a b || le b a) = true) ∧
    (∀ a b, le a b = true → le b a = true → a = b) ∧ s.WF ∧ 0 < s.mat.nc ∧ 1 ≤ m.minSamples ∧ data.Perm data' ∧
    data ≠ data' ∧ lexSamples s s data 5 = [(5, 0, 1), (5, 2, 3)] ∧ lexSamples s s data' 5 = [(5, 2, 3), (5, 0, 1)] ∧
    ∀ ic, m.learner ≠ .lstsq ic := by
  obtain ⟨s, s1, s2, s3, s4, s5⟩ := exists_space (Mat.of 4 1 (fun i _ => (i : ℝ))) [0, 1, 2, 3] (by simp) rfl none (by simp)
  refine ⟨fun a b => decide (a ≤ b), ⟨.ridge true false [] (some 1), [], none, false, 2⟩,
    [(5, 0, 1), (3, 1, 2), (5, 2, 3), (3, 9, 3)], [(5, 2, 3), (3, 9, 3), (5, 0, 1), (3, 1, 2)], s, ?_, ?_, ?_, s1,
    by rw [s2]; exact Nat.one_pos, by decide, by decide, by decide, ?_, ?_, by simp⟩
  · intro a b c h1 h2
    rw [decide_eq_true_eq] at *
    omega
  · intro a b
    simp only [Bool.or_eq_true, decide_eq_true_eq]
    omega
  · intro a b h1 h2
    rw [decide_eq_true_eq] at *
    omega
  · unfold lexSamples; rw [s3]; rfl
  · unfold lexSamples; rw [s3]; rfl

end
end Dissect
