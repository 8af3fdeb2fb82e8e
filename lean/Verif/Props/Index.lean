import Verif.Props.Matrix

/-!
# Indexing a matrix (C129)
-/

namespace Dissect
noncomputable section

variable {K : Type} [Zero K]

/-! ### Specification -/

/-- The Python indices of a sequence of length `n`. -/
def ValidIdx (n : ℕ) (i : ℤ) : Prop := -(n : ℤ) ≤ i ∧ i < n

/-- The position meant by a Python index: negative ones count from the end. -/
def place (n : ℕ) (i : ℤ) : ℕ := if i < 0 then (i + n).toNat else i.toNat

theorem pyIdx_valid {n : ℕ} {i : ℤ} (h : ValidIdx n i) : pyIdx n i = some (place n i) := by
  unfold ValidIdx at h
  unfold pyIdx place
  by_cases h0 : i < 0
  · rw [if_neg (by omega), if_pos (by omega), if_pos h0]
  · rw [if_pos (by omega), if_neg h0]

theorem pyIdx_invalid {n : ℕ} {i : ℤ} (h : ¬ ValidIdx n i) : pyIdx n i = none := by
  unfold ValidIdx at h
  unfold pyIdx
  rw [if_neg (by omega), if_neg (by omega)]

theorem place_lt {n : ℕ} {i : ℤ} (h : ValidIdx n i) : place n i < n := by
  unfold ValidIdx at h
  unfold place
  split <;> omega

theorem normIdx_valid {n : ℕ} {is : List ℤ} (h : ∀ i ∈ is, ValidIdx n i) : TMat.normIdx n is = .ok (is.map (place n)) := by
  apply TMat.normIdx_ok
  rw [List.forall₂_map_right_iff]
  exact List.forall₂_same.2 (fun i hi => pyIdx_valid (h i hi))

theorem normIdx_invalid {n : ℕ} {is : List ℤ} (h : ∃ i ∈ is, ¬ ValidIdx n i) : TMat.normIdx n is = .error .indexError := by
  induction is with
  | nil => obtain ⟨i, hi, _⟩ := h; cases hi
  | cons a is ih =>
    unfold TMat.normIdx
    by_cases ha : ValidIdx n a
    · obtain ⟨i, hi, hn⟩ := h
      rw [pyIdx_valid ha]
      simp only
      rw [ih ⟨i, ?_, hn⟩]
      rcases List.mem_cons.1 hi with rfl | hi
      · exact absurd ha hn
      · exact hi
    · rw [pyIdx_invalid ha]

/-! ### `m[i]`, `m[[i, ...], :]`, `m[:, [j, ...]]` -/

/-- **C129** `m[i]` is a one-row matrix of the class of `m` for `-n ≤ i < n`, and raises `IndexError` otherwise. -/
theorem C129_row (m : TMat K) (hc : 0 < m.nc) (i : ℤ) :
    (ValidIdx m.nr i → ∃ r, m.getRow i = .ok r ∧ r.ty = m.ty ∧ r.nr = 1 ∧ r.nc = m.nc ∧
      ∀ j, r.val.get 0 j = m.val.get (place m.nr i) j) ∧
    (¬ ValidIdx m.nr i → m.getRow i = .error .indexError) := by
  constructor
  · intro h
    unfold TMat.getRow
    rw [pyIdx_valid h]
    exact ⟨_, TMat.wrap_ok_pos (by simp) hc, rfl, rfl, rfl, fun j => rfl⟩
  · intro h
    unfold TMat.getRow
    rw [pyIdx_invalid h]

/-- **C129** `m[[i₀, i₁, ...], :]` has the rows asked for, in order and with repetitions; one index out of range raises
`IndexError`. -/
theorem C129_rows (m : TMat K) (hc : 0 < m.nc) (is : List ℤ) (hne : is ≠ []) :
    ((∀ i ∈ is, ValidIdx m.nr i) → ∃ r, m.getRows is = .ok r ∧ r.ty = m.ty ∧ r.nr = is.length ∧ r.nc = m.nc ∧
      ∀ p i, is[p]? = some i → ∀ j, r.val.get p j = m.val.get (place m.nr i) j) ∧
    ((∃ i ∈ is, ¬ ValidIdx m.nr i) → m.getRows is = .error .indexError) := by
  constructor
  · intro h
    unfold TMat.getRows
    rw [normIdx_valid h]
    refine ⟨_, TMat.wrap_ok_pos (by simpa using List.length_pos_iff.2 hne) hc, rfl, by simp [TMat.nr], rfl, ?_⟩
    intro p i hp j
    exact Mat.selRows_get_some (by rw [List.getElem?_map, hp]; rfl) j
  · intro h
    unfold TMat.getRows
    rw [normIdx_invalid h]

/-- **C129** `m[:, [c₀, c₁, ...]]` has the columns asked for; one number out of range raises `IndexError`. -/
theorem C129_cols (m : TMat K) (hr : 0 < m.nr) (cs : List ℕ) (hne : cs ≠ []) :
    ((∀ c ∈ cs, c < m.nc) → ∃ r, m.getCols cs = .ok r ∧ r.ty = m.ty ∧ r.nr = m.nr ∧ r.nc = cs.length ∧
      ∀ p c, cs[p]? = some c → ∀ i, r.val.get i p = m.val.get i c) ∧
    ((∃ c ∈ cs, m.nc ≤ c) → m.getCols cs = .error .indexError) := by
  constructor
  · intro h
    unfold TMat.getCols
    rw [if_pos (by simpa using h)]
    refine ⟨_, TMat.wrap_ok_pos hr (by simpa using List.length_pos_iff.2 hne), rfl, rfl, rfl, ?_⟩
    intro p c hp i
    show (m.val.selCols cs).get i p = _
    rw [Mat.selCols_get, hp]
  · rintro ⟨c, hc, hle⟩
    unfold TMat.getCols
    rw [if_neg]
    simp only [List.all_eq_true, decide_eq_true_eq, not_forall]
    exact ⟨c, hc, by omega⟩

/-- **C129** `m[[i], :]` is `m[i]`. -/
theorem C129_single (m : TMat K) (i : ℤ) : m.getRows [i] = m.getRow i := by
  unfold TMat.getRows TMat.getRow TMat.normIdx
  cases pyIdx m.nr i with
  | none => rfl
  | some k => rfl

/-- **C129** selecting rows of selected rows is selecting once: `m[is, :][js, :]` is `m[[is[j] for j in js], :]`. -/
theorem C129_rows_rows (m r : TMat K) (hc : 0 < m.nc) (is js : List ℤ) (hi : is ≠ []) (hj : js ≠ [])
    (hr : m.getRows is = .ok r) (hv : ∀ j ∈ js, ValidIdx is.length j) :
    r.getRows js = m.getRows (js.map (fun j => is.getD (place is.length j) 0)) := by
  have hvi : ∀ i ∈ is, ValidIdx m.nr i := by
    by_contra hcon
    push Not at hcon
    rw [(C129_rows m hc is hi).2 hcon] at hr
    cases hr
  obtain ⟨r', e1, t1, n1, c1, g1⟩ := (C129_rows m hc is hi).1 hvi
  rw [hr] at e1
  cases e1
  obtain ⟨a, ea, ta, na, ca, ga⟩ := (C129_rows r (by rw [c1]; exact hc) js hj).1 (by rw [n1]; exact hv)
  have hk : ∀ j ∈ js, is[place is.length j]? = some (is.getD (place is.length j) 0) := by
    intro j hj'
    have := place_lt (hv j hj')
    rw [List.getD_eq_getElem?_getD, List.getElem?_eq_getElem this]
    rfl
  obtain ⟨b, eb, tb, nb, cb, gb⟩ := (C129_rows m hc (js.map (fun j => is.getD (place is.length j) 0)) (by simpa using hj)).1
    (by
      intro i him
      obtain ⟨j, hj', rfl⟩ := List.mem_map.1 him
      exact hvi _ (List.mem_of_getElem? (hk j hj')))
  rw [ea, eb]
  congr 1
  have : a.val = b.val := by
    apply Mat.ext'
    · show a.nr = b.nr
      rw [na, nb, List.length_map]
    · show a.nc = b.nc
      rw [ca, cb, c1]
    · intro p q hp _
      have hp' : p < js.length := by rw [← na]; exact hp
      have hjp : js[p]? = some js[p] := List.getElem?_eq_getElem hp'
      rw [ga p _ hjp, n1, g1 _ _ (hk _ (List.getElem_mem hp')), gb p _ (by rw [List.getElem?_map, hjp]; rfl)]
  cases a; cases b
  simp_all

/-- **C129** rows and columns may be selected in either order. -/
theorem C129_rows_cols (m a b : TMat K) (hc : 0 < m.nc) (hr : 0 < m.nr) (is : List ℤ) (cs : List ℕ) (hi : is ≠ [])
    (hcs : cs ≠ []) (ha : m.getRows is = .ok a) (hb : m.getCols cs = .ok b) :
    a.getCols cs = b.getRows is := by
  have hvi : ∀ i ∈ is, ValidIdx m.nr i := by
    by_contra hcon
    push Not at hcon
    rw [(C129_rows m hc is hi).2 hcon] at ha
    cases ha
  have hvc : ∀ c ∈ cs, c < m.nc := by
    by_contra hcon
    push Not at hcon
    rw [(C129_cols m hr cs hcs).2 hcon] at hb
    cases hb
  obtain ⟨a', ea, ta, na, ca, ga⟩ := (C129_rows m hc is hi).1 hvi
  rw [ha] at ea; cases ea
  obtain ⟨b', eb, tb, nb, cb, gb⟩ := (C129_cols m hr cs hcs).1 hvc
  rw [hb] at eb; cases eb
  obtain ⟨x, ex, tx, nx, cx, gx⟩ := (C129_cols a (by rw [na]; exact List.length_pos_iff.2 hi) cs hcs).1 (by rw [ca]; exact hvc)
  obtain ⟨y, ey, ty, ny, cy, gy⟩ := (C129_rows b (by rw [cb]; exact List.length_pos_iff.2 hcs) is hi).1 (by rw [nb]; exact hvi)
  rw [ex, ey]
  congr 1
  have : x.val = y.val := by
    apply Mat.ext'
    · show x.nr = y.nr
      rw [nx, ny, na]
    · show x.nc = y.nc
      rw [cx, cy, cb]
    · intro p q hp hq
      have hp' : p < is.length := by rw [← na, ← nx]; exact hp
      have hq' : q < cs.length := by rw [← cx]; exact hq
      have h1 : is[p]? = some is[p] := List.getElem?_eq_getElem hp'
      have h2 : cs[q]? = some cs[q] := List.getElem?_eq_getElem hq'
      rw [gx q _ h2, ga p _ h1, gy p _ h1, nb, gb q _ h2]
  cases x; cases y
  simp_all

/-- A two by three matrix whose last row is row `-1`. -/
def exIdx : TMat ℚ := ⟨.dense, Mat.of 2 3 (fun i j => 3 * i + j)⟩

example : ValidIdx exIdx.nr (-2) ∧ ¬ ValidIdx exIdx.nr 2 ∧ ¬ ValidIdx exIdx.nr (-3) ∧ place exIdx.nr (-2) = 0 ∧
    0 < exIdx.nc := by
  refine ⟨?_, ?_, ?_, rfl, ?_⟩ <;> simp [ValidIdx, exIdx, TMat.nr, TMat.nc]

example : ∃ r, exIdx.getRow (-1) = .ok r ∧ r.val.get 0 2 = 5 := by
  obtain ⟨r, h, _, _, _, g⟩ := (C129_row exIdx (by simp [exIdx, TMat.nc]) (-1)).1 (by simp [ValidIdx, exIdx, TMat.nr])
  refine ⟨r, h, ?_⟩
  rw [g]
  show (Mat.of 2 3 _).get 1 2 = _
  rw [Mat.of_get_lt (by omega) (by omega)]
  norm_num

end
end Dissect
