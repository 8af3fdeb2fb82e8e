import Verif.Model.NmfInit
import Verif.Props.Matrix
import Verif.Lemmas.Py

/-! # C107: stacking a list of matrices is stacking them one after the other -/

namespace Dissect
open Finset
variable {K : Type} [Field K]

theorem TMat.eta (t : TMat K) : (⟨t.ty, t.val⟩ : TMat K) = t := rfl

/-- **C107** `nary_vstack` of a non-empty list of matrices of its class is the matrix obtained by calling `vstack`
repeatedly, and raises the same exception when some widths differ. -/
theorem C107_nary_vstack (ty : MTy) (t : TMat K) (ts : List (TMat K)) (ht : t.ty = ty) (hts : ∀ u ∈ ts, u.ty = ty)
    (h1 : 0 < t.nr) (h2 : 0 < t.nc) :
    TMat.naryVstack ty (t :: ts) = ts.foldlM (fun a u => a.vstack u) t := by
  induction ts generalizing t with
  | nil =>
    subst ht
    simp only [TMat.naryVstack, List.all_cons, List.all_nil, decide_true, Bool.and_true, if_true, List.foldl_nil,
      List.foldlM_nil]
    exact TMat.wrap_ok_pos h1 h2
  | cons u ts ih =>
    have hu : u.ty = ty := hts u (by simp)
    rw [List.foldlM_cons]
    have hall : (t :: u :: ts).all (fun u => decide (u.ty = ty)) = true := by
      rw [List.all_eq_true]
      intro x hx
      rw [decide_eq_true_eq]
      rcases List.mem_cons.1 hx with rfl | hx
      · exact ht
      · exact hts x hx
    by_cases hw : t.nc = u.nc
    · have hv : t.vstack u = .ok ⟨ty, t.val.vstack u.val⟩ := by
        unfold TMat.vstack
        rw [if_pos (ht.trans hu.symm), if_pos hw, ht]
        exact TMat.wrap_ok_pos (show 0 < t.val.nr + u.val.nr from Nat.add_pos_left h1 _) h2
      rw [hv, ok_bind, ← ih ⟨ty, t.val.vstack u.val⟩ rfl (fun x hx => hts x (by simp [hx]))
        (show 0 < t.val.nr + u.val.nr from Nat.add_pos_left h1 _) h2]
      have hall' : ((⟨ty, t.val.vstack u.val⟩ : TMat K) :: ts).all (fun u => decide (u.ty = ty)) = true := by
        rw [List.all_eq_true]
        intro x hx
        rw [decide_eq_true_eq]
        rcases List.mem_cons.1 hx with rfl | hx
        · rfl
        · exact hts x (by simp [hx])
      simp only [TMat.naryVstack]
      rw [if_pos hall, if_pos hall']
      simp only [List.all_cons, hw.symm, decide_true, Bool.true_and, List.foldl_cons]
      rfl
    · have hv : t.vstack u = .error .valueError := by
        unfold TMat.vstack
        rw [if_pos (ht.trans hu.symm), if_neg hw]
      rw [hv, error_bind]
      simp only [TMat.naryVstack]
      rw [if_pos hall, if_neg]
      simp only [List.all_cons, Bool.and_eq_true, decide_eq_true_eq]
      exact fun h => hw h.1.symm

/-- **C107** `nary_hstack` likewise. -/
theorem C107_nary_hstack (ty : MTy) (t : TMat K) (ts : List (TMat K)) (ht : t.ty = ty) (hts : ∀ u ∈ ts, u.ty = ty)
    (h1 : 0 < t.nr) (h2 : 0 < t.nc) :
    TMat.naryHstack ty (t :: ts) = ts.foldlM (fun a u => a.hstack u) t := by
  induction ts generalizing t with
  | nil =>
    subst ht
    simp only [TMat.naryHstack, List.all_cons, List.all_nil, decide_true, Bool.and_true, if_true, List.foldl_nil,
      List.foldlM_nil]
    exact TMat.wrap_ok_pos h1 h2
  | cons u ts ih =>
    have hu : u.ty = ty := hts u (by simp)
    rw [List.foldlM_cons]
    have hall : (t :: u :: ts).all (fun u => decide (u.ty = ty)) = true := by
      rw [List.all_eq_true]
      intro x hx
      rw [decide_eq_true_eq]
      rcases List.mem_cons.1 hx with rfl | hx
      · exact ht
      · exact hts x hx
    by_cases hw : t.nr = u.nr
    · have hv : t.hstack u = .ok ⟨ty, t.val.hstack u.val⟩ := by
        unfold TMat.hstack
        rw [if_pos (ht.trans hu.symm), if_pos hw, ht]
        exact TMat.wrap_ok_pos h1 (show 0 < t.val.nc + u.val.nc from Nat.add_pos_left h2 _)
      rw [hv, ok_bind, ← ih ⟨ty, t.val.hstack u.val⟩ rfl (fun x hx => hts x (by simp [hx])) h1
        (show 0 < t.val.nc + u.val.nc from Nat.add_pos_left h2 _)]
      have hall' : ((⟨ty, t.val.hstack u.val⟩ : TMat K) :: ts).all (fun u => decide (u.ty = ty)) = true := by
        rw [List.all_eq_true]
        intro x hx
        rw [decide_eq_true_eq]
        rcases List.mem_cons.1 hx with rfl | hx
        · rfl
        · exact hts x (by simp [hx])
      simp only [TMat.naryHstack]
      rw [if_pos hall, if_pos hall']
      simp only [List.all_cons, hw.symm, decide_true, Bool.true_and, List.foldl_cons]
      rfl
    · have hv : t.hstack u = .error .valueError := by
        unfold TMat.hstack
        rw [if_pos (ht.trans hu.symm), if_neg hw]
      rw [hv, error_bind]
      simp only [TMat.naryHstack]
      rw [if_pos hall, if_neg]
      simp only [List.all_cons, Bool.and_eq_true, decide_eq_true_eq]
      exact fun h => hw h.1.symm

/-- **C107** the empty list: `ValueError`. -/
theorem C107_empty (ty : MTy) : TMat.naryVstack (K := K) ty [] = .error .valueError ∧
    TMat.naryHstack (K := K) ty [] = .error .valueError := ⟨rfl, rfl⟩

/-- The rows of the matrices, one matrix after the other. -/
def stackedRows (l : List (TMat K)) : List (ℕ → K) := l.flatMap (fun t => (List.range t.nr).map t.val.get)

theorem stackedRows_foldlM (ts : List (TMat K)) : ∀ (t r : TMat K), 0 < t.nr → 0 < t.nc →
    ts.foldlM (fun a u => a.vstack u) t = .ok r →
    r.ty = t.ty ∧ r.nc = t.nc ∧ r.nr = (stackedRows (t :: ts)).length ∧
      ∀ k row, (stackedRows (t :: ts))[k]? = some row → r.val.get k = row := by
  induction ts with
  | nil =>
    intro t r h1 h2 h
    obtain rfl := ok_inj h
    refine ⟨rfl, rfl, by simp [stackedRows], fun k row hk => ?_⟩
    simp only [stackedRows, List.flatMap_cons, List.flatMap_nil, List.append_nil, List.getElem?_map] at hk
    by_cases hlt : k < t.nr
    · rw [List.getElem?_range hlt] at hk
      simpa using hk
    · rw [List.getElem?_eq_none (by simpa using hlt)] at hk
      simp at hk
  | cons u ts ih =>
    intro t r h1 h2 h
    rw [List.foldlM_cons, bind_eq_ok] at h
    obtain ⟨v, hv, h⟩ := h
    unfold TMat.vstack at hv
    split at hv
    swap
    · cases hv
    split at hv
    swap
    · cases hv
    rename_i hty hnc
    rw [TMat.wrap_ok_pos (A := t.val.vstack u.val) (show 0 < t.val.nr + u.val.nr from Nat.add_pos_left h1 _) h2] at hv
    obtain rfl := ok_inj hv
    obtain ⟨e1, e2, e3, e4⟩ := ih ⟨t.ty, t.val.vstack u.val⟩ r (show 0 < t.val.nr + u.val.nr from Nat.add_pos_left h1 _) h2 h
    have hrows : stackedRows ((⟨t.ty, t.val.vstack u.val⟩ : TMat K) :: ts) = stackedRows (t :: u :: ts) := by
      simp only [stackedRows, List.flatMap_cons]
      rw [← List.append_assoc]
      congr 1
      refine List.ext_getElem (by simp [TMat.nr, Mat.vstack]) (fun i a b => ?_)
      rw [List.getElem_append]
      simp only [List.getElem_map, List.getElem_range, List.length_map, List.length_range]
      funext j
      rw [Mat.vstack_get hnc]
      split
      · rfl
      · rfl
    rw [hrows] at e3 e4
    exact ⟨e1, e2, e3, e4⟩

/-- **C107** so when `nary_vstack` succeeds its rows are the rows of the first matrix, then those of the second, and so on. -/
theorem C107_rows (ty : MTy) (t r : TMat K) (ts : List (TMat K)) (ht : t.ty = ty) (hts : ∀ u ∈ ts, u.ty = ty)
    (h1 : 0 < t.nr) (h2 : 0 < t.nc) (h : TMat.naryVstack ty (t :: ts) = .ok r) :
    r.ty = ty ∧ r.nc = t.nc ∧ r.nr = (stackedRows (t :: ts)).length ∧
      ∀ k row, (stackedRows (t :: ts))[k]? = some row → r.val.get k = row := by
  rw [C107_nary_vstack ty t ts ht hts h1 h2] at h
  obtain ⟨e1, e2⟩ := stackedRows_foldlM ts t r h1 h2 h
  exact ⟨e1.trans ht, e2⟩

/-- Non-vacuity of C107: three matrices of 1, 2 and 1 rows. -/
example : ∃ r : TMat ℚ, TMat.naryVstack .sparse [⟨.sparse, Mat.of 1 2 (fun _ j => (j : ℚ))⟩, ⟨.sparse, Mat.of 2 2 (fun i _ => (i : ℚ))⟩,
    ⟨.sparse, Mat.of 1 2 (fun _ _ => 7)⟩] = .ok r ∧ r.nr = 4 ∧ r.val.get 2 1 = 1 ∧ r.val.get 3 0 = 7 := by
  obtain ⟨r, hr⟩ : ∃ r : TMat ℚ, TMat.naryVstack .sparse [⟨.sparse, Mat.of 1 2 (fun _ j => (j : ℚ))⟩,
      ⟨.sparse, Mat.of 2 2 (fun i _ => (i : ℚ))⟩, ⟨.sparse, Mat.of 1 2 (fun _ _ => 7)⟩] = .ok r := by
    simp only [TMat.naryVstack]
    rw [if_pos (by rfl), if_pos (by rfl)]
    exact ⟨_, TMat.wrap_ok_pos (by simp [Mat.vstack]) (by simp [Mat.vstack])⟩
  obtain ⟨_, _, e3, e4⟩ := C107_rows .sparse _ r _ rfl (by simp) (by simp [TMat.nr]) (by simp [TMat.nc]) hr
  have hs : stackedRows [(⟨.sparse, Mat.of 1 2 (fun _ j => (j : ℚ))⟩ : TMat ℚ), ⟨.sparse, Mat.of 2 2 (fun i _ => (i : ℚ))⟩,
      ⟨.sparse, Mat.of 1 2 (fun _ _ => 7)⟩] = [(Mat.of 1 2 (fun _ j => (j : ℚ))).get 0, (Mat.of 2 2 (fun i _ => (i : ℚ))).get 0,
      (Mat.of 2 2 (fun i _ => (i : ℚ))).get 1, (Mat.of 1 2 (fun _ _ => 7)).get 0] := rfl
  rw [hs] at e3 e4
  refine ⟨r, hr, e3, ?_, ?_⟩
  · rw [e4 2 _ rfl, Mat.of_get_lt (by omega) (by omega)]
    norm_num
  · rw [e4 3 _ rfl, Mat.of_get_lt (by omega) (by omega)]

end Dissect
