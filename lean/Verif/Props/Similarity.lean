import Verif.Lemmas.Similarity
import Verif.Props.Space
import Mathlib.Algebra.Order.Chebyshev
import Mathlib.Analysis.MeanInequalities

/-! # Similarity queries (C08–C11) and the similarity measures (C13–C15) -/

namespace Dissect
open Finset
variable {κ : Type} [DecidableEq κ]

/-! ## Rows of a space -/

theorem Space.row_of_word {s : Space κ} (h : s.WF) (hc : 0 < s.mat.nc) {i : ℕ} {w : κ} (hw : s.HasWord i w) :
    s.getRow w = .ok ⟨s.mat.ty, s.mat.val.row i⟩ := by
  rw [Space.getRow_of_word h hw]
  exact TMat.wrap_ok (fun _ => ⟨by simp, hc⟩)

theorem Space.isRow_row (s : Space κ) (ty : MTy) (i : ℕ) : IsRow (⟨ty, s.mat.val.row i⟩ : TMat ℝ) s.mat.nc :=
  ⟨rfl, rfl⟩

theorem Space.getRowOpt_word {s : Space κ} (h : s.WF) (hc : 0 < s.mat.nc) {i : ℕ} {w : κ} (hw : s.HasWord i w) :
    s.getRowOpt w = .ok (some ⟨s.mat.ty, s.mat.val.row i⟩) := by
  unfold Space.getRowOpt
  rw [Space.row_of_word h hc hw]

theorem Space.getRowOpt_missing {s : Space κ} (h : s.WF) {w : κ} (hw : w ∉ s.id2row) :
    s.getRowOpt w = .ok none := by
  unfold Space.getRowOpt
  rw [Space.getRow_missing h hw]

theorem Space.hasWord_of_mem {s : Space κ} {w : κ} (hw : w ∈ s.id2row) : ∃ i, s.HasWord i w :=
  List.mem_iff_getElem?.1 hw

theorem resolve_dense_two {a b : TMat ℝ} {n n' : ℕ} (ha : IsRow a n) (hb : IsRow b n') (hn : 0 < n) (hn' : 0 < n') :
    ∃ ty, TMat.resolveTypeConflict [a, b] (some .dense) = .ok [⟨ty, a.val⟩, ⟨ty, b.val⟩] := by
  unfold TMat.resolveTypeConflict
  split
  · refine ⟨.dense, ?_⟩
    simp only [TMat.toTypeAll, TMat.toType_ok .dense (isRow_ne hn ha), TMat.toType_ok .dense (isRow_ne hn' hb)]
  · rename_i h
    have hty : b.ty = a.ty := by
      simpa [TMat.typeConflict] using h
    refine ⟨a.ty, ?_⟩
    have h2 : b = ⟨a.ty, b.val⟩ := by rw [← hty]
    rw [← h2]

/-! ## C08 -/

/-- **C08** a word missing from its space gives the similarity 0. -/
theorem C08_missing (s target : Space κ) (space2 : Option (Space κ)) (sim : Sim) (w1 w2 : κ)
    (ht : target = space2.getD s) (h1 : s.WF) (h2 : target.WF) (hc : 0 < s.mat.nc)
    (hmiss : w1 ∉ s.id2row ∨ w2 ∉ target.id2row) : s.getSim w1 w2 sim space2 = .ok 0 := by
  unfold Space.getSim
  by_cases hw : w1 ∈ s.id2row
  · obtain ⟨i, hi⟩ := Space.hasWord_of_mem hw
    have hw2 : w2 ∉ target.id2row := by
      rcases hmiss with h | h
      · exact absurd hw h
      · exact h
    rw [Space.getRowOpt_word h1 hc hi, ← ht, Space.getRowOpt_missing h2 hw2]
    rfl
  · rw [Space.getRowOpt_missing h1 hw]
    rfl

/-- **C08** for two known words `get_sim` is the measure applied to the two row vectors that `get_row` returns, and it
is the same number whatever classes (`DenseMatrix`/`SparseMatrix`) these vectors have. -/
theorem C08_measure_of_rows (s target : Space κ) (space2 : Option (Space κ)) (sim : Sim) (w1 w2 : κ)
    (ht : target = space2.getD s) (h1 : s.WF) (h2 : target.WF) (hc : 0 < s.mat.nc)
    (hcc : s.mat.nc = target.mat.nc) (hw1 : w1 ∈ s.id2row) (hw2 : w2 ∈ target.id2row) :
    ∃ r1 r2 x, s.getRow w1 = .ok r1 ∧ target.getRow w2 = .ok r2 ∧ s.getSim w1 w2 sim space2 = .ok x ∧
      ∀ ty1 ty2, sim.getSim ⟨ty1, r1.val⟩ ⟨ty2, r2.val⟩ = .ok x := by
  obtain ⟨i, hi⟩ := Space.hasWord_of_mem hw1
  obtain ⟨j, hj⟩ := Space.hasWord_of_mem hw2
  have hc' : 0 < target.mat.nc := hcc ▸ hc
  refine ⟨_, _, simVal sim s.mat.nc (s.mat.val.get i) (target.mat.val.get j), Space.row_of_word h1 hc hi,
    Space.row_of_word h2 hc' hj, ?_, ?_⟩
  · unfold Space.getSim
    rw [Space.getRowOpt_word h1 hc hi, ← ht, Space.getRowOpt_word h2 hc' hj]
    simp only [ok_bind]
    obtain ⟨ty, hty⟩ := resolve_dense_two (s.isRow_row s.mat.ty i) (target.isRow_row target.mat.ty j) hc hc'
    rw [hty]
    simp only [ok_bind]
    exact getSim_row sim hc (s.isRow_row ty i) (by rw [hcc]; exact target.isRow_row ty j)
  · intro ty1 ty2
    exact getSim_row sim hc (s.isRow_row ty1 i) (by rw [hcc]; exact target.isRow_row ty2 j)

/-- **C08** vectors of different lengths are rejected. -/
theorem C08_width_mismatch (s target : Space κ) (space2 : Option (Space κ)) (sim : Sim) (w1 w2 : κ)
    (ht : target = space2.getD s) (h1 : s.WF) (h2 : target.WF) (hc : 0 < s.mat.nc) (hc' : 0 < target.mat.nc)
    (hcc : s.mat.nc ≠ target.mat.nc) (hw1 : w1 ∈ s.id2row) (hw2 : w2 ∈ target.id2row) :
    s.getSim w1 w2 sim space2 = .error .valueError := by
  obtain ⟨i, hi⟩ := Space.hasWord_of_mem hw1
  obtain ⟨j, hj⟩ := Space.hasWord_of_mem hw2
  unfold Space.getSim
  rw [Space.getRowOpt_word h1 hc hi, ← ht, Space.getRowOpt_word h2 hc' hj]
  simp only [ok_bind]
  obtain ⟨ty, hty⟩ := resolve_dense_two (s.isRow_row s.mat.ty i) (target.isRow_row target.mat.ty j) hc hc'
  rw [hty]
  simp only [ok_bind]
  exact getSim_width sim hc' (s.isRow_row ty i) (target.isRow_row ty j) hcc

/-- **C08** `get_sims` is the list of `get_sim` of the pairs, in input order. -/
theorem C08_get_sims (s : Space κ) (sim : Sim) (space2 : Option (Space κ)) (pairs : List (κ × κ)) (xs : List ℝ) :
    s.getSims sim space2 pairs = .ok xs ↔
      xs.length = pairs.length ∧
      ∀ (k : ℕ) (p : κ × κ) (x : ℝ), pairs[k]? = some p → xs[k]? = some x → s.getSim p.1 p.2 sim space2 = .ok x := by
  induction pairs generalizing xs with
  | nil =>
    simp only [Space.getSims, List.length_nil, List.getElem?_nil, reduceCtorEq, false_implies, implies_true, and_true]
    constructor
    · intro h; obtain rfl := ok_inj h; rfl
    · intro h; obtain rfl := List.length_eq_zero_iff.1 h; rfl
  | cons p ps ih =>
    obtain ⟨w1, w2⟩ := p
    simp only [Space.getSims, bind_eq_ok, pure_eq_ok]
    constructor
    · rintro ⟨x, hx, ys, hys, h⟩
      obtain rfl := ok_inj h
      obtain ⟨hl, hk⟩ := (ih ys).1 hys
      refine ⟨by simp [hl], ?_⟩
      intro k q y hq hy
      cases k with
      | zero =>
        simp only [List.getElem?_cons_zero, Option.some.injEq] at hq hy
        subst hq; subst hy
        exact hx
      | succ k =>
        simp only [List.getElem?_cons_succ] at hq hy
        exact hk k q y hq hy
    · rintro ⟨hl, hk⟩
      cases xs with
      | nil => simp at hl
      | cons x ys =>
        refine ⟨x, hk 0 (w1, w2) x rfl rfl, ys, (ih ys).2 ⟨by simpa using hl, ?_⟩, rfl⟩
        intro k q y hq hy
        exact hk (k + 1) q y (by simpa using hq) (by simpa using hy)

/-- `get_sims` over well formed spaces of equal width always succeeds. -/
theorem C08_get_sims_total (s target : Space κ) (space2 : Option (Space κ)) (sim : Sim)
    (ht : target = space2.getD s) (h1 : s.WF) (h2 : target.WF) (hc : 0 < s.mat.nc)
    (hcc : s.mat.nc = target.mat.nc) (pairs : List (κ × κ)) : ∃ xs, s.getSims sim space2 pairs = .ok xs := by
  induction pairs with
  | nil => exact ⟨[], rfl⟩
  | cons p ps ih =>
    obtain ⟨xs, hxs⟩ := ih
    have : ∃ x, s.getSim p.1 p.2 sim space2 = .ok x := by
      by_cases hm : p.1 ∈ s.id2row ∧ p.2 ∈ target.id2row
      · obtain ⟨_, _, x, _, _, hx, _⟩ := C08_measure_of_rows s target space2 sim p.1 p.2 ht h1 h2 hc hcc hm.1 hm.2
        exact ⟨x, hx⟩
      · exact ⟨0, C08_missing s target space2 sim p.1 p.2 ht h1 h2 hc (by tauto)⟩
    obtain ⟨x, hx⟩ := this
    refine ⟨x :: xs, ?_⟩
    simp only [Space.getSims, hx, ok_bind, hxs]
    rfl

/-- Non-vacuity: a dense space queried against a sparse one. -/
example : ∃ s t : Space String, s.WF ∧ t.WF ∧ 0 < s.mat.nc ∧ s.mat.nc = t.mat.nc ∧ s.mat.ty ≠ t.mat.ty ∧
    "dog" ∈ s.id2row ∧ "cat" ∈ t.id2row ∧ "bird" ∉ t.id2row := by
  obtain ⟨s, hs, hm, hr, _⟩ := ex_space .dense
  obtain ⟨t, ht, hm', hr', _⟩ := ex_space .sparse
  refine ⟨s, t, hs, ht, ?_⟩
  rw [hm, hm', hr, hr']
  refine ⟨by norm_num [exMat, TMat.nc], rfl, by simp [exMat], by simp, by simp, by simp⟩

/-! ## C11 -/

/-- **C11** the batched computation returns a column whose `i`-th entry is `get_sim(v, M[i])`. -/
theorem C11_batched_eq_pairwise (sim : Sim) (v M : TMat ℝ) (hv : v.nr = 1) (hvc : v.nc = M.nc) (hc : 0 < M.nc)
    (hr : 0 < M.nr) :
    ∃ S, sim.getSimsToMatrix v M = .ok S ∧ S.nr = M.nr ∧ S.nc = 1 ∧
      ∀ i : ℕ, i < M.nr → ∃ r, M.getRow i = .ok r ∧ sim.getSim v r = .ok (S.val.get i 0) := by
  obtain ⟨S, hS, h1, h2, h3⟩ := getSimsToMatrix_ok sim (v := v) (m := M) ⟨hv, hvc⟩ hc hr
  refine ⟨S, hS, h1, h2, fun i hi => ?_⟩
  have hrow : M.getRow (i : ℤ) = .ok ⟨M.ty, M.val.row i⟩ := by
    unfold TMat.getRow
    rw [pyIdx_nat hi]
    exact TMat.wrap_ok (A := M.val.row i) (fun _ => ⟨by simp, hc⟩)
  refine ⟨_, hrow, ?_⟩
  rw [h3 i hi]
  exact getSim_row sim hc ⟨hv, hvc⟩ ⟨rfl, rfl⟩

/-- **C11** both forms reject vectors of the wrong length. -/
theorem C11_shape_mismatch (sim : Sim) (v M : TMat ℝ) (hc : 0 < M.nc) (hr : 0 < M.nr)
    (h : v.nc ≠ M.nc ∨ v.nr ≠ 1) : sim.getSimsToMatrix v M = .error .valueError := by
  unfold Sim.getSimsToMatrix TMat.toCompatible
  rw [TMat.toType_ok v.ty (fun _ => ⟨hr, hc⟩ : M.NE)]
  simp only [ok_bind]
  rw [if_pos h]

example : ∃ v M : TMat ℝ, v.nr = 1 ∧ v.nc = M.nc ∧ 0 < M.nc ∧ 0 < M.nr ∧ v.ty ≠ M.ty ∧ v.val.get 0 1 = 3 ∧
    M.val.get 1 1 = 3 :=
  ⟨⟨.sparse, Mat.of 1 3 (fun _ j => (1 + 2 * j : ℕ))⟩, exMat .dense, rfl, rfl, by norm_num [exMat, TMat.nc], by norm_num [exMat, TMat.nr],
    by simp [exMat], by norm_num [Mat.of_get], by norm_num [exMat, Mat.of_get]⟩

/-! ## C09, C10 -/

theorem getD_of_lt {α : Type} {l : List α} (d : α) {k : ℕ} (h : k < l.length) : l.getD k d = l[k] := by
  simp [List.getD, List.getElem?_eq_getElem h]


theorem neighbourLoop_eq (d : κ) (ids : List κ) (sims : TMat ℝ) (is : List ℕ) (h : ∀ i ∈ is, i < ids.length) :
    Space.neighbourLoop ids sims is = .ok (is.map (fun i => (ids.getD i d, sims.val.get i 0))) := by
  induction is with
  | nil => rfl
  | cons i is ih =>
    have hi := h i List.mem_cons_self
    simp only [Space.neighbourLoop, ih (fun k hk => h k (List.mem_cons_of_mem _ hk)),
      pyGet_nat (l := ids) (k := i) (x := ids[i]) (List.getElem?_eq_getElem hi), ok_bind, pure_eq_ok, List.map_cons]
    congr 2
    simp [List.getD, List.getElem?_eq_getElem hi]

/-- `p` comes before `q` in a neighbour list of a space with row labels `rows`: a higher score, or the same score and
an earlier row. -/
def RanksBefore (rows : List κ) (p q : κ × ℝ) : Prop :=
  q.2 < p.2 ∨ (q.2 = p.2 ∧ rows.idxOf p.1 < rows.idxOf q.1)

/-- What a correct answer `res` to a neighbour query is: `score` is the score of every row of the searched space. -/
structure TopNeighbours (rows : List κ) (score : κ → ℝ) (n : ℤ) (res : List (κ × ℝ)) : Prop where
  /-- `min(n, number of rows)` entries, none for `n ≤ 0` -/
  length : (res.length : ℤ) = max 0 (min n rows.length)
  /-- every entry is a row with its own score -/
  entries : ∀ p ∈ res, p.1 ∈ rows ∧ p.2 = score p.1
  /-- no row twice -/
  distinct : (res.map Prod.fst).Nodup
  /-- ordered by score, ties in row order -/
  ordered : res.Pairwise (RanksBefore rows)
  /-- every row left out ranks after every row returned -/
  best : ∀ p ∈ res, ∀ x ∈ rows, x ∉ res.map Prod.fst → RanksBefore rows p (x, score x)

/-- **C09/C10** `get_neighbours` of a known word returns the top-`n` list for the scores given by `get_sim`. -/
theorem C09_top_n (s target : Space κ) (space2 : Option (Space κ)) (sim : Sim) (w : κ) (n : ℤ)
    (ht : target = space2.getD s) (h1 : s.WF) (h2 : target.WF) (hc : 0 < s.mat.nc)
    (hcc : s.mat.nc = target.mat.nc) (hw : w ∈ s.id2row) (hr : 0 < target.id2row.length) :
    ∃ res score, s.getNeighbours w n sim space2 = .ok res ∧
      (∀ x ∈ target.id2row, s.getSim w x sim space2 = .ok (score x)) ∧
      TopNeighbours target.id2row score n res := by
  obtain ⟨i, hi⟩ := Space.hasWord_of_mem hw
  have hc' : 0 < target.mat.nc := hcc ▸ hc
  have hnr : target.mat.nr = target.id2row.length := h2.nrows
  have hr' : 0 < target.mat.nr := by rw [hnr]; exact hr
  have hnd : target.id2row.Nodup := h2.rows.nodup
  -- the query vector
  obtain ⟨ty, hv⟩ : ∃ ty, Space.queryVector ⟨s.mat.ty, s.mat.val.row i⟩ space2 = .ok ⟨ty, s.mat.val.row i⟩ := by
    cases space2 with
    | none => exact ⟨s.mat.ty, rfl⟩
    | some s2 => exact ⟨s2.mat.ty, TMat.toType_ok _ (isRow_ne hc (s.isRow_row s.mat.ty i))⟩
  obtain ⟨S, hS, hSr, hSc, hSv⟩ := getSimsToMatrix_ok sim (v := ⟨ty, s.mat.val.row i⟩) (m := target.mat)
    (by rw [← hcc]; exact s.isRow_row ty i) hc' hr'
  set ids := target.id2row with hids
  set key : ℕ → ℝ := fun k => S.val.get k 0 with hkey
  have hperm : sortedPermutation S.sum1 = sortedDesc ids.length
      (fun k => ((List.range S.nr).map S.val.rowSum).getD k 0) := by
    unfold sortedPermutation TMat.sum1
    simp only [List.length_map, List.length_range]
    rw [hSr, hnr]
  have hrs : ∀ k, k < ids.length → ((List.range S.nr).map S.val.rowSum).getD k 0 = key k := by
    intro k hk
    rw [TMat.getD_map_range _ _ (by rw [hSr, hnr]; exact hk)]
    unfold Mat.rowSum
    have : S.val.nc = 1 := hSc
    rw [this]
    simp [hkey]
  set perm := sortedPermutation S.sum1 with hpdef
  have hplen : perm.length = ids.length := by rw [hperm, sortedDesc_length]
  have hpmem : ∀ k, k ∈ perm ↔ k < ids.length := by
    intro k; rw [hperm]; exact mem_sortedDesc
  have hpnd : perm.Nodup := by rw [hperm]; exact sortedDesc_nodup _ _
  have hpord : perm.Pairwise (fun a b => key b < key a ∨ (key b = key a ∧ a < b)) := by
    have h0 := sortedDesc_pairwise ids.length (fun k => ((List.range S.nr).map S.val.rowSum).getD k 0)
    rw [← hperm] at h0
    refine h0.imp_of_mem ?_
    intro a b ha hb hab
    have ha' := (hpmem a).1 ha
    have hb' := (hpmem b).1 hb
    simp only [hrs a ha', hrs b hb'] at hab
    exact hab
  set kk := (min n (ids.length : ℤ)).toNat with hkk
  have hkle : kk ≤ ids.length := by omega
  set f : ℕ → κ × ℝ := fun k => (ids.getD k w, key k) with hf
  have hidx : ∀ k, k < ids.length → ids.idxOf (ids.getD k w) = k := by
    intro k hk
    rw [getD_of_lt _ hk]
    exact hnd.idxOf_getElem k hk
  set score : κ → ℝ := fun x => key (ids.idxOf x) with hscore
  have hfs : ∀ k, k < ids.length → (f k).2 = score (f k).1 := by
    intro k hk
    simp only [hf, hscore, hidx k hk]
  refine ⟨(perm.take kk).map f, score, ?_, ?_, ?_⟩
  · unfold Space.getNeighbours
    rw [Space.row_of_word h1 hc hi]
    simp only [ok_bind, ← ht]
    rw [hv]
    simp only [ok_bind, hS]
    rw [if_pos (by rw [← hpdef, hplen]; exact hkle)]
    exact neighbourLoop_eq w ids S _ (fun k hk => (hpmem k).1 (List.mem_of_mem_take hk))
  · intro x hx
    have hlt : ids.idxOf x < ids.length := List.idxOf_lt_length_of_mem hx
    have hword : target.HasWord (ids.idxOf x) x := by
      unfold Space.HasWord
      rw [← hids, List.getElem?_eq_getElem hlt, List.getElem_idxOf hlt]
    unfold Space.getSim
    rw [Space.getRowOpt_word h1 hc hi, ← ht, Space.getRowOpt_word h2 hc' hword]
    simp only [ok_bind]
    obtain ⟨ty', hty'⟩ := resolve_dense_two (s.isRow_row s.mat.ty i)
      (target.isRow_row target.mat.ty (ids.idxOf x)) hc hc'
    rw [hty']
    simp only [ok_bind]
    rw [getSim_row sim hc' (by rw [← hcc]; exact s.isRow_row ty' i) (target.isRow_row ty' _)]
    rw [hscore]
    simp only [hkey]
    rw [hSv _ (by rw [hnr]; exact hlt)]
    rfl
  · have htake : ∀ k ∈ perm.take kk, k < ids.length := fun k hk => (hpmem k).1 (List.mem_of_mem_take hk)
    have hrank : ∀ a b, a < ids.length → b < ids.length → (key b < key a ∨ (key b = key a ∧ a < b)) →
        RanksBefore ids (f a) (f b) := by
      intro a b ha hb hab
      unfold RanksBefore
      simp only [hf, hidx a ha, hidx b hb]
      exact hab
    refine ⟨?_, ?_, ?_, ?_, ?_⟩
    · rw [List.length_map, List.length_take, hplen]
      omega
    · intro p hp
      obtain ⟨k, hk, rfl⟩ := List.mem_map.1 hp
      refine ⟨?_, hfs k (htake k hk)⟩
      simp only [hf]
      rw [getD_of_lt _ (htake k hk)]
      exact List.getElem_mem _
    · rw [List.map_map]
      refine List.Nodup.map_on ?_ (hpnd.sublist (List.take_sublist _ _))
      intro a ha b hb hab
      simp only [Function.comp, hf] at hab
      rw [← hidx a (htake a ha), ← hidx b (htake b hb), hab]
    · rw [List.pairwise_map]
      refine (hpord.sublist (List.take_sublist kk _)).imp_of_mem ?_
      intro a b ha hb hab
      exact hrank a b (htake a ha) (htake b hb) hab
    · intro p hp x hx hnot
      obtain ⟨a, ha, rfl⟩ := List.mem_map.1 hp
      have hxlt : ids.idxOf x < ids.length := List.idxOf_lt_length_of_mem hx
      have hxmem : ids.idxOf x ∈ perm := (hpmem _).2 hxlt
      have hfx : f (ids.idxOf x) = (x, score x) := by
        simp only [hf, hscore]
        rw [getD_of_lt _ hxlt, List.getElem_idxOf hxlt]
      have hdrop : ids.idxOf x ∈ perm.drop kk := by
        rw [← List.take_append_drop kk perm, List.mem_append] at hxmem
        rcases hxmem with h | h
        · exact absurd (List.mem_map.2 ⟨f (ids.idxOf x), List.mem_map.2 ⟨_, h, rfl⟩, by rw [hfx]⟩) hnot
        · exact h
      have hpw := hpord
      rw [← List.take_append_drop kk perm, List.pairwise_append] at hpw
      rw [← hfx]
      exact hrank a _ (htake a ha) hxlt (hpw.2.2 a ha _ hdrop)

/-- **C09** an unknown word raises `KeyError`. -/
theorem C09_unknown_word (s : Space κ) (space2 : Option (Space κ)) (sim : Sim) (w : κ) (n : ℤ) (h1 : s.WF)
    (hw : w ∉ s.id2row) : s.getNeighbours w n sim space2 = .error .keyError := by
  unfold Space.getNeighbours
  rw [Space.getRow_missing h1 hw]
  rfl

/-- **C10** every returned score is the `get_sim` score of that neighbour. -/
theorem C10_scores_are_get_sim (s target : Space κ) (space2 : Option (Space κ)) (sim : Sim) (w : κ) (n : ℤ)
    (ht : target = space2.getD s) (h1 : s.WF) (h2 : target.WF) (hc : 0 < s.mat.nc)
    (hcc : s.mat.nc = target.mat.nc) (hr : 0 < target.id2row.length)
    (res : List (κ × ℝ)) (h : s.getNeighbours w n sim space2 = .ok res) :
    ∀ p ∈ res, s.getSim w p.1 sim space2 = .ok p.2 := by
  by_cases hw : w ∈ s.id2row
  · obtain ⟨res', score, h', hsc, htop⟩ := C09_top_n s target space2 sim w n ht h1 h2 hc hcc hw hr
    rw [h] at h'
    obtain rfl := ok_inj h'
    intro p hp
    obtain ⟨hm, he⟩ := htop.entries p hp
    rw [he]
    exact hsc p.1 hm
  · rw [C09_unknown_word s space2 sim w n h1 hw] at h
    cases h

/-- Non-vacuity for C09/C10, with two spaces of different classes. -/
example : ∃ s t : Space String, s.WF ∧ t.WF ∧ 0 < s.mat.nc ∧ s.mat.nc = t.mat.nc ∧ s.mat.ty ≠ t.mat.ty ∧
    "dog" ∈ s.id2row ∧ 0 < t.id2row.length := by
  obtain ⟨s, hs, hm, hr, _⟩ := ex_space .dense
  obtain ⟨t, ht, hm', hr', _⟩ := ex_space .sparse
  refine ⟨s, t, hs, ht, ?_⟩
  rw [hm, hm', hr, hr']
  refine ⟨by norm_num [exMat, TMat.nc], rfl, by simp [exMat], by simp, by simp⟩

/-! ## C13 -/

/-- Euclidean length of a vector of length `n`. -/
noncomputable def vlen (n : ℕ) (u : ℕ → ℝ) : ℝ := Real.sqrt (∑ j ∈ range n, u j ^ 2)

theorem len2_eq_zero {n : ℕ} {u : ℕ → ℝ} : len2 n u = 0 ↔ ∀ j < n, u j = 0 := by
  unfold len2
  rw [Real.sqrt_eq_zero (Finset.sum_nonneg (fun j _ => sq_nonneg _)),
    Finset.sum_eq_zero_iff_of_nonneg (fun j _ => sq_nonneg _)]
  constructor
  · intro h j hj
    exact pow_eq_zero_iff (two_ne_zero) |>.1 (h j (Finset.mem_range.2 hj))
  · intro h j hj
    rw [h j (Finset.mem_range.1 hj)]
    norm_num

/-- **C13** the formula: inner product over the product of the lengths, 0 for a zero vector. -/
theorem C13_formula (a b : TMat ℝ) (n : ℕ) (hn : 0 < n) (ha : IsRow a n) (hb : IsRow b n) :
    Sim.cos.getSim a b = .ok (
      if (∀ j < n, a.val.get 0 j = 0) ∨ (∀ j < n, b.val.get 0 j = 0) then 0
      else (∑ j ∈ range n, a.val.get 0 j * b.val.get 0 j) / (vlen n (a.val.get 0) * vlen n (b.val.get 0))) := by
  rw [getSim_row .cos hn ha hb]
  simp only [simVal, len2_eq_zero]
  rfl

/-- **C13** symmetry. -/
theorem C13_symmetric (a b : TMat ℝ) (n : ℕ) (hn : 0 < n) (ha : IsRow a n) (hb : IsRow b n) :
    Sim.cos.getSim a b = Sim.cos.getSim b a := by
  rw [getSim_row .cos hn ha hb, getSim_row .cos hn hb ha]
  simp only [simVal, inner]
  rw [show (∑ j ∈ range n, a.val.get 0 j * b.val.get 0 j) = ∑ j ∈ range n, b.val.get 0 j * a.val.get 0 j from
    Finset.sum_congr rfl (fun j _ => mul_comm _ _), mul_comm (len2 n (a.val.get 0))]
  congr 1
  simp only [or_comm]

theorem abs_inner_le (n : ℕ) (u v : ℕ → ℝ) : |inner n u v| ≤ len2 n u * len2 n v := by
  unfold inner len2
  rw [abs_le]
  constructor
  · have := Real.sum_mul_le_sqrt_mul_sqrt (range n) (fun j => - u j) v
    simp only [neg_mul, Finset.sum_neg_distrib, neg_sq] at this
    linarith
  · exact Real.sum_mul_le_sqrt_mul_sqrt (range n) u v

/-- **C13** the score lies in `[-1, 1]`. -/
theorem C13_bounded (a b : TMat ℝ) (n : ℕ) (hn : 0 < n) (ha : IsRow a n) (hb : IsRow b n) :
    ∃ c, Sim.cos.getSim a b = .ok c ∧ -1 ≤ c ∧ c ≤ 1 := by
  refine ⟨_, getSim_row .cos hn ha hb, ?_⟩
  simp only [simVal]
  split
  · norm_num
  · rename_i h
    push Not at h
    have h1 : 0 < len2 n (a.val.get 0) * len2 n (b.val.get 0) :=
      mul_pos (lt_of_le_of_ne (Real.sqrt_nonneg _) (Ne.symm h.1)) (lt_of_le_of_ne (Real.sqrt_nonneg _) (Ne.symm h.2))
    have := abs_le.1 (abs_inner_le n (a.val.get 0) (b.val.get 0))
    rw [le_div_iff₀ h1, div_le_iff₀ h1]
    constructor <;> linarith [this.1, this.2]

/-- **C13** a non-zero vector has similarity 1 with itself, also across classes. -/
theorem C13_self (a : TMat ℝ) (ty : MTy) (n : ℕ) (hn : 0 < n) (ha : IsRow a n) (j : ℕ) (hj : a.val.get 0 j ≠ 0) :
    Sim.cos.getSim a ⟨ty, a.val⟩ = .ok 1 := by
  rw [getSim_row .cos hn ha (⟨ha.nr, ha.nc⟩ : IsRow ⟨ty, a.val⟩ n)]
  have hjn : j < n := by
    by_contra h
    exact hj (a.val.get_col_oob 0 (by rw [ha.val_nc]; omega))
  have hne : len2 n (a.val.get 0) ≠ 0 := fun h => hj (len2_eq_zero.1 h j hjn)
  simp only [simVal, hne, or_self, if_false]
  congr 1
  have : inner n (a.val.get 0) (a.val.get 0) = len2 n (a.val.get 0) * len2 n (a.val.get 0) := by
    unfold len2
    rw [Real.mul_self_sqrt (Finset.sum_nonneg (fun j _ => sq_nonneg _))]
    unfold inner
    exact Finset.sum_congr rfl (fun j _ => (pow_two _).symm)
  rw [this, div_self (mul_ne_zero hne hne)]

theorem len2_smul {n : ℕ} {u : ℕ → ℝ} {t : ℝ} (ht : 0 < t) : len2 n (fun j => t * u j) = t * len2 n u := by
  unfold len2
  simp only [mul_pow, ← Finset.mul_sum]
  rw [Real.sqrt_mul (sq_nonneg t), Real.sqrt_sq ht.le]

/-- **C13** multiplying either vector by a positive number changes nothing. -/
theorem C13_scale_free (a b : TMat ℝ) (n : ℕ) (hn : 0 < n) (ha : IsRow a n) (hb : IsRow b n) (t u : ℝ) (ht : 0 < t)
    (hu : 0 < u) :
    ∃ ta ub, a.mulScalar t = .ok ta ∧ b.mulScalar u = .ok ub ∧ Sim.cos.getSim ta ub = Sim.cos.getSim a b := by
  refine ⟨⟨a.ty, a.val.smul t⟩, ⟨b.ty, b.val.smul u⟩,
    TMat.wrap_ok (A := a.val.smul t) (fun _ => ⟨by simp [ha.val_nr], by simp [ha.val_nc, hn]⟩),
    TMat.wrap_ok (A := b.val.smul u) (fun _ => ⟨by simp [hb.val_nr], by simp [hb.val_nc, hn]⟩), ?_⟩
  rw [getSim_row .cos hn (⟨ha.nr, ha.nc⟩ : IsRow ⟨a.ty, a.val.smul t⟩ n)
    (⟨hb.nr, hb.nc⟩ : IsRow ⟨b.ty, b.val.smul u⟩ n), getSim_row .cos hn ha hb]
  have e1 : (a.val.smul t).get 0 = fun j => t * a.val.get 0 j := rfl
  have e2 : (b.val.smul u).get 0 = fun j => u * b.val.get 0 j := rfl
  simp only [simVal, e1, e2, len2_smul ht, len2_smul hu, mul_eq_zero, ht.ne', hu.ne', false_or]
  split
  · rfl
  · rename_i h
    push Not at h
    congr 1
    have : inner n (fun j => t * a.val.get 0 j) (fun j => u * b.val.get 0 j) =
        t * u * inner n (a.val.get 0) (b.val.get 0) := by
      unfold inner
      rw [Finset.mul_sum]
      exact Finset.sum_congr rfl (fun j _ => by ring)
    rw [this]
    rw [show t * len2 n (a.val.get 0) * (u * len2 n (b.val.get 0)) =
      t * u * (len2 n (a.val.get 0) * len2 n (b.val.get 0)) by ring]
    exact mul_div_mul_left _ _ (mul_pos ht hu).ne'

/-- Row vectors meeting the hypotheses of C13–C15. -/
example : ∃ a b : TMat ℝ, IsRow a 2 ∧ IsRow b 2 ∧ a.ty ≠ b.ty ∧ a.val.get 0 1 = 2 ∧ b.val.get 0 0 = 1 ∧
    ∀ j < 2, 0 ≤ a.val.get 0 j ∧ 0 ≤ b.val.get 0 j :=
  ⟨⟨.dense, Mat.of 1 2 (fun _ j => (j + 1 : ℕ))⟩, ⟨.sparse, Mat.of 1 2 (fun _ _ => 1)⟩, ⟨rfl, rfl⟩, ⟨rfl, rfl⟩,
    by simp, by norm_num [Mat.of_get], by norm_num [Mat.of_get], by
      intro j hj
      simp only [Mat.of_get]
      constructor
      · split
        · positivity
        · exact le_rfl
      · split <;> simp⟩

/-! ## C14 -/

/-- **C14** the formula: `1 / (1 + Euclidean distance)`. -/
theorem C14_formula (a b : TMat ℝ) (n : ℕ) (hn : 0 < n) (ha : IsRow a n) (hb : IsRow b n) :
    Sim.euclid.getSim a b = .ok (1 / (1 + vlen n (fun j => a.val.get 0 j - b.val.get 0 j))) :=
  getSim_row .euclid hn ha hb

/-- **C14** symmetry. -/
theorem C14_symmetric (a b : TMat ℝ) (n : ℕ) (hn : 0 < n) (ha : IsRow a n) (hb : IsRow b n) :
    Sim.euclid.getSim a b = Sim.euclid.getSim b a := by
  rw [C14_formula a b n hn ha hb, C14_formula b a n hn hb ha]
  congr 3
  unfold vlen
  congr 1
  exact Finset.sum_congr rfl (fun j _ => by ring)

/-- **C14** the score lies in `(0, 1]` and is 1 exactly for equal vectors. -/
theorem C14_range (a b : TMat ℝ) (n : ℕ) (hn : 0 < n) (ha : IsRow a n) (hb : IsRow b n) :
    ∃ c, Sim.euclid.getSim a b = .ok c ∧ 0 < c ∧ c ≤ 1 ∧ (c = 1 ↔ ∀ j < n, a.val.get 0 j = b.val.get 0 j) := by
  refine ⟨_, C14_formula a b n hn ha hb, ?_⟩
  have h0 : 0 ≤ vlen n (fun j => a.val.get 0 j - b.val.get 0 j) := Real.sqrt_nonneg _
  refine ⟨by positivity, ?_, ?_⟩
  · rw [div_le_one (by linarith)]; linarith
  · rw [div_eq_one_iff_eq (by linarith)]
    have : vlen n (fun j => a.val.get 0 j - b.val.get 0 j) = 0 ↔ ∀ j < n, a.val.get 0 j - b.val.get 0 j = 0 :=
      len2_eq_zero
    constructor
    · intro h j hj
      exact sub_eq_zero.1 (this.1 (by linarith) j hj)
    · intro h
      rw [this.2 (fun j hj => sub_eq_zero.2 (h j hj))]
      ring

/-- **C14** a larger distance gives a strictly smaller similarity. -/
theorem C14_strictly_decreasing (a b c d : TMat ℝ) (n m : ℕ) (hn : 0 < n) (hm : 0 < m) (ha : IsRow a n) (hb : IsRow b n)
    (hc : IsRow c m) (hd : IsRow d m) :
    ∃ x y, Sim.euclid.getSim a b = .ok x ∧ Sim.euclid.getSim c d = .ok y ∧
      (vlen n (fun j => a.val.get 0 j - b.val.get 0 j) < vlen m (fun j => c.val.get 0 j - d.val.get 0 j) ↔ y < x) := by
  refine ⟨_, _, C14_formula a b n hn ha hb, C14_formula c d m hm hc hd, ?_⟩
  have h0 : 0 ≤ vlen n (fun j => a.val.get 0 j - b.val.get 0 j) := Real.sqrt_nonneg _
  have h1 : 0 ≤ vlen m (fun j => c.val.get 0 j - d.val.get 0 j) := Real.sqrt_nonneg _
  rw [one_div_lt_one_div (by linarith) (by linarith)]
  constructor <;> intro h <;> linarith

/-! ## C15 -/

/-- The documented formula: components where *both* vectors are strictly positive. -/
noncomputable def linSpec (n : ℕ) (u v : ℕ → ℝ) : ℝ :=
  if ∑ j ∈ range n, (u j + v j) = 0 then 0
  else (∑ j ∈ range n, if 0 < u j ∧ 0 < v j then u j + v j else 0) / ∑ j ∈ range n, (u j + v j)

/-- **C15** (partial) the documented formula holds when no component is negative in both vectors. Missing: vectors
with a component negative in both, where the code deviates (see `C15_refuted`). -/
theorem C15_formula_partial (a b : TMat ℝ) (n : ℕ) (hn : 0 < n) (ha : IsRow a n) (hb : IsRow b n)
    (hneg : ∀ j < n, ¬ (a.val.get 0 j < 0 ∧ b.val.get 0 j < 0)) :
    Sim.lin.getSim a b = .ok (linSpec n (a.val.get 0) (b.val.get 0)) := by
  rw [getSim_row .lin hn ha hb]
  congr 1
  simp only [simVal, linSpec, Finset.sum_add_distrib]
  split
  · rfl
  · congr 1
    refine Finset.sum_congr rfl (fun j hj => ?_)
    have h := hneg j (Finset.mem_range.1 hj)
    have : 0 < a.val.get 0 j * b.val.get 0 j ↔ 0 < a.val.get 0 j ∧ 0 < b.val.get 0 j := by
      rw [mul_pos_iff]; tauto
    simp only [this]

/-- **C15** what the code computes for arbitrary vectors: the index set consists of the components that are strictly positive
in both vectors *or strictly negative in both*. -/
theorem C15_computed (a b : TMat ℝ) (n : ℕ) (hn : 0 < n) (ha : IsRow a n) (hb : IsRow b n) :
    Sim.lin.getSim a b = .ok (
      let u := a.val.get 0
      let v := b.val.get 0
      if ∑ j ∈ range n, (u j + v j) = 0 then 0
      else (∑ j ∈ range n, if (0 < u j ∧ 0 < v j) ∨ (u j < 0 ∧ v j < 0) then u j + v j else 0) /
        ∑ j ∈ range n, (u j + v j)) := by
  rw [getSim_row .lin hn ha hb]
  congr 1
  simp only [simVal, Finset.sum_add_distrib, mul_pos_iff]

/-- **C15** symmetry. -/
theorem C15_symmetric (a b : TMat ℝ) (n : ℕ) (hn : 0 < n) (ha : IsRow a n) (hb : IsRow b n) :
    Sim.lin.getSim a b = Sim.lin.getSim b a := by
  rw [getSim_row .lin hn ha hb, getSim_row .lin hn hb ha]
  simp only [simVal]
  simp only [add_comm (∑ j ∈ range n, b.val.get 0 j), add_comm (b.val.get 0 _), mul_comm (b.val.get 0 _)]

/-- **C15** on non-negative vectors the score lies in `[0, 1]`. -/
theorem C15_range (a b : TMat ℝ) (n : ℕ) (hn : 0 < n) (ha : IsRow a n) (hb : IsRow b n)
    (hpos : ∀ j < n, 0 ≤ a.val.get 0 j ∧ 0 ≤ b.val.get 0 j) :
    ∃ c, Sim.lin.getSim a b = .ok c ∧ 0 ≤ c ∧ c ≤ 1 := by
  refine ⟨_, C15_formula_partial a b n hn ha hb (fun j hj h => by linarith [hpos j hj]), ?_⟩
  unfold linSpec
  split
  · norm_num
  · rename_i h0
    have hsum : 0 ≤ ∑ j ∈ range n, (a.val.get 0 j + b.val.get 0 j) :=
      Finset.sum_nonneg (fun j hj => by have := hpos j (Finset.mem_range.1 hj); linarith [this.1, this.2])
    have hpos' := lt_of_le_of_ne hsum (Ne.symm h0)
    constructor
    · refine div_nonneg (Finset.sum_nonneg (fun j hj => ?_)) hsum
      have := hpos j (Finset.mem_range.1 hj)
      split <;> linarith [this.1, this.2]
    · rw [div_le_one hpos']
      refine Finset.sum_le_sum (fun j hj => ?_)
      have := hpos j (Finset.mem_range.1 hj)
      split <;> linarith [this.1, this.2]

/-- **C15** refuted in full generality: for `u = (-1, 2)`, `v = (-1, 1)` the documented value is 3 but the code
returns 1, because the test is on the product of the components. -/
theorem C15_refuted : ¬ ∀ (a b : TMat ℝ) (n : ℕ), 0 < n → IsRow a n → IsRow b n →
    Sim.lin.getSim a b = .ok (linSpec n (a.val.get 0) (b.val.get 0)) := by
  intro h
  let a : TMat ℝ := ⟨.dense, Mat.of 1 2 (fun _ j => if j = 0 then -1 else 2)⟩
  let b : TMat ℝ := ⟨.dense, Mat.of 1 2 (fun _ j => if j = 0 then -1 else 1)⟩
  have ha : IsRow a 2 := ⟨rfl, rfl⟩
  have hb : IsRow b 2 := ⟨rfl, rfl⟩
  have h1 := h a b 2 (by norm_num) ha hb
  rw [getSim_row .lin (by norm_num) ha hb] at h1
  have h2 := ok_inj h1
  norm_num [simVal, linSpec, a, b, Mat.of_get, Finset.sum_range_succ] at h2

/-- non-vacuity of C15_computed, on vectors where the documented formula fails: `u = (-1, 2)`, `v = (-1, 1)`, score 1. -/
example : Sim.lin.getSim ⟨.dense, Mat.of 1 2 (fun _ j => if j = 0 then -1 else 2)⟩
    ⟨.sparse, Mat.of 1 2 (fun _ j => if j = 0 then -1 else 1)⟩ = .ok 1 := by
  rw [C15_computed _ _ 2 (by norm_num) ⟨rfl, rfl⟩ ⟨rfl, rfl⟩]
  norm_num [Mat.of_get, Finset.sum_range_succ]

end Dissect
