import Verif.Props.RoundTrip

/-! # C112: after one text round trip, further round trips change nothing -/

namespace Dissect
noncomputable section

/-- `float('%f' % x)` is again a number of the kind `F`, and formatting it once more gives back the same number. (For
IEEE doubles: where neighbouring doubles are closer than 1e-6, the six decimals of the second formatting are those of
the first; where they are not, the first formatting already determines the double.) -/
def FmtStable (io : NumIO) (F : Set ℝ) : Prop :=
  ∀ x ∈ F, ∀ y, io.parse (io.fmtF x) = some y → y ∈ F ∧ io.parse (io.fmtF y) = some y

/-- `s'` is what `Space.build` reads from the four files that `s.export(pre, format="sm")` wrote. -/
def SmReread (io : NumIO) (fs : Fs) (s : Space Str) (store : Csr ℝ) (pre : Str) (fs' : Fs) (s' : Space Str) : Prop :=
  Space.export io fs s store pre (some "sm".toList) = .ok fs' ∧
  Space.build io fs' ⟨some (smFile pre), some "sm".toList, some (rowsFile pre), some (colsFile pre)⟩ = .ok s'

/-- **C112** A space that has been through one sparse text round trip survives every further one unchanged (words,
columns, type and all numbers), whatever the file names and whatever else is on the disk. -/
theorem C112_second_roundtrip {io : NumIO} {F : Set ℝ} (laws : io.Laws F) (h0 : (0 : ℝ) ∈ F) (hst : FmtStable io F)
    {fs fs1 gs gs1 : Fs} {s s1 s2 : Space Str} (hs : s.WF) (hrw : ∀ w ∈ s.id2row, IsWord w)
    (hcw : ∀ w ∈ s.id2col, IsWord w) (hne : s.id2row ≠ []) (hcn : s.id2col ≠ [])
    (hF : ∀ i j, i < s.mat.nr → j < s.mat.nc → s.mat.val.get i j ∈ F) {store store1 : Csr ℝ}
    (h1 : s.mat.ty = .sparse → store.WF ∧ store.toMat = s.mat.val ∧ ∀ x ∈ store.data, x ∈ F)
    (h2 : store1.WF ∧ store1.toMat = s1.mat.val ∧ ∀ x ∈ store1.data, x ∈ F) {pre pre1 : Str}
    (hr : SmReread io fs s store pre fs1 s1) (hr1 : SmReread io gs s1 store1 pre1 gs1 s2) :
    s2.id2row = s1.id2row ∧ s2.id2col = s1.id2col ∧ s2.mat = s1.mat := by
  obtain ⟨u, hu, r1, c1, i1, j1, t1, n1, m1, v1⟩ := C59_sm_roundtrip_partial laws h0 hs hrw hcw hne hcn hF h1 hr.1
  rw [hr.2] at hu
  obtain rfl := ok_inj hu
  have wf1 := (C63_built_space hr.2).1
  have hF1 : ∀ i j, i < s1.mat.nr → j < s1.mat.nc → s1.mat.val.get i j ∈ F ∧
      io.parse (io.fmtF (s1.mat.val.get i j)) = some (s1.mat.val.get i j) := by
    intro i j hi hj
    rw [n1] at hi
    rw [m1] at hj
    exact hst _ (hF i j hi hj) _ (v1 i j hi hj).1
  obtain ⟨w, hw, r2, c2, _, _, t2, n2, m2, v2⟩ := C59_sm_roundtrip_partial laws h0 wf1 (by rw [r1]; exact hrw)
    (by rw [c1]; exact hcw) (by rw [r1]; exact hne) (by rw [c1]; exact hcn) (fun i j hi hj => (hF1 i j hi hj).1)
    (fun _ => h2) hr1.1
  rw [hr1.2] at hw
  obtain rfl := ok_inj hw
  refine ⟨r2, c2, TMat.ext' (t2.trans t1.symm) (Mat.ext' n2 m2 ?_)⟩
  intro i j hi hj
  have hi' : i < s1.mat.nr := by rw [← n2]; exact hi
  have hj' : j < s1.mat.nc := by rw [← m2]; exact hj
  have e := (v2 i j hi' hj').1
  rw [(hF1 i j hi' hj').2] at e
  exact (Option.some.inj e).symm

/-- The csr arrays of a 1×1 matrix. -/
def oneStore (x : ℝ) : Csr ℝ := ⟨1, 1, [x], [0], [0, 1]⟩

theorem oneStore_wf (x : ℝ) : (oneStore x).WF where
  len_ptr := rfl
  ptr_zero := rfl
  mono := by intro i hi; have : i = 0 := by simpa [oneStore] using hi
             subst this; show 0 ≤ 1; omega
  ptr_last := rfl
  len_idx := rfl
  idx_lt := by simp [oneStore]
  nodup := by intro i hi; have : i = 0 := by simpa [oneStore] using hi
              subst this; show ([0] : List ℕ).Nodup; simp

theorem sciIO_stable : FmtStable sciIO ({x | ∃ k : ℤ, x = k / 1000000} ∪ {1 / 10000000}) := by
  intro x _ y hy
  have h1 : parseDec (fmtDec x) = some y := by
    have : sciIO.parse (fmtDec x) = some y := hy
    unfold sciIO at this
    simp only [] at this
    rwa [if_neg (fmtDec_ne_sci x)] at this
  rw [parseDec_fmtDec] at h1
  have hk : ∃ k : ℤ, y = k / 1000000 := by
    obtain rfl := Option.some.inj h1
    by_cases hx : x < 0
    · exact ⟨-(millionths x : ℤ), by rw [if_pos hx]; push_cast; ring⟩
    · exact ⟨(millionths x : ℤ), by rw [if_neg hx]; push_cast; ring⟩
  refine ⟨Or.inl hk, ?_⟩
  show sciIO.parse (fmtDec y) = some y
  unfold sciIO
  simp only []
  rw [if_neg (fmtDec_ne_sci y)]
  exact fmtDec_exact hk

/-- Non-vacuity of C112: the number 1/10000000 becomes 0 in the first round trip and stays 0 in the second. -/
example : ∃ (fs1 gs1 : Fs) (s1 s2 : Space Str),
    SmReread sciIO fs0 (oneCell (1 / 10000000)) (oneStore 0) "./x".toList fs1 s1 ∧
    SmReread sciIO fs0 s1 (oneStore (s1.mat.val.get 0 0)) "./x".toList gs1 s2 ∧ s2.mat = s1.mat ∧ s1.mat.val.get 0 0 = 0 := by
  have h0 : (0 : ℝ) ∈ ({x | ∃ k : ℤ, x = k / 1000000} ∪ {1 / 10000000} : Set ℝ) := Or.inl ⟨0, by simp⟩
  have hx : (1 / 10000000 : ℝ) ∈ ({x | ∃ k : ℤ, x = k / 1000000} ∪ {1 / 10000000} : Set ℝ) := Or.inr rfl
  have hcell : ∀ i j, i < (oneCell (1 / 10000000)).mat.nr → j < (oneCell (1 / 10000000)).mat.nc →
      (oneCell (1 / 10000000)).mat.val.get i j ∈ ({x | ∃ k : ℤ, x = k / 1000000} ∪ {1 / 10000000} : Set ℝ) := by
    intro i j hi hj
    have : (oneCell (1 / 10000000)).mat.val.get i j = 1 / 10000000 := Mat.of_get_lt hi hj
    rw [this]; exact hx
  obtain ⟨fs1, he⟩ := oneCell_export sciIO (1 / 10000000) (oneStore 0) (format := some "sm".toList) (Or.inr (Or.inr rfl))
  obtain ⟨s1, b1, r1, c1, i1, j1, t1, n1, m1, v1⟩ := C59_sm_roundtrip_partial sciIO_laws h0 (oneCell_wf _)
    (oneCell_words _).1 (oneCell_words _).2 (by simp [oneCell]) (by simp [oneCell]) hcell (store := oneStore 0)
    (by intro h; cases h) he
  have n1' : s1.mat.nr = 1 := n1
  have m1' : s1.mat.nc = 1 := m1
  have hv := (v1 0 0 Nat.one_pos Nat.one_pos).1
  have hz : s1.mat.val.get 0 0 = 0 := by
    have hc : (oneCell (1 / 10000000)).mat.val.get 0 0 = 1 / 10000000 := Mat.of_get_lt Nat.one_pos Nat.one_pos
    rw [hc, sciIO_laws.fmtF_small _ hx (by rw [abs_of_pos (by norm_num)]; norm_num)] at hv
    exact (Option.some.inj hv).symm
  have hmat : (oneStore (s1.mat.val.get 0 0)).toMat = s1.mat.val := by
    refine Mat.ext' n1'.symm m1'.symm ?_
    intro i j hi hj
    have hi' : i = 0 := by have : i < 1 := hi; omega
    have hj' : j = 0 := by have : j < 1 := hj; omega
    subst hi' hj'
    rw [hz]
    unfold Csr.toMat
    rw [Mat.of_get_lt (show 0 < (oneStore 0).nr from Nat.one_pos) (show 0 < (oneStore 0).nc from Nat.one_pos)]
    simp [oneStore, Csr.rowList, Csr.stored, Csr.ptr, Csr.valueAt]
  have hst : (oneStore (s1.mat.val.get 0 0)).WF ∧ (oneStore (s1.mat.val.get 0 0)).toMat = s1.mat.val ∧
      ∀ x ∈ (oneStore (s1.mat.val.get 0 0)).data, x ∈ ({x | ∃ k : ℤ, x = k / 1000000} ∪ {1 / 10000000} : Set ℝ) := by
    refine ⟨oneStore_wf _, hmat, ?_⟩
    intro x hx
    rw [hz] at hx
    have : x = 0 := by simpa [oneStore] using hx
    rw [this]; exact h0
  have wf1 := (C63_built_space b1).1
  have hr1 : s1.id2row = ["r".toList] := r1
  have hc1 : s1.id2col = ["c".toList] := c1
  obtain ⟨gs1, hg⟩ : ∃ gs1, Space.export sciIO fs0 s1 (oneStore (s1.mat.val.get 0 0)) "./x".toList (some "sm".toList) = .ok gs1 := by
    refine C62_export_partial fs0_ok wf1 (by decide) ?_ ?_ ?_
    · intro f hf
      simp only [List.mem_cons, List.not_mem_nil, or_false] at hf
      rcases hf with rfl | rfl | rfl | rfl <;> decide
    · simp [fs0, Dict.empty, Dict.keys]
    · exact Or.inr (Or.inr ⟨rfl, by simp [hr1], by simp [hc1], fun _ => ⟨hst.1, hst.2.1⟩⟩)
  obtain ⟨s2, b2, _⟩ := C59_sm_roundtrip_partial sciIO_laws h0 wf1 (by rw [r1]; exact (oneCell_words _).1)
    (by rw [c1]; exact (oneCell_words _).2) (by simp [hr1]) (by simp [hc1])
    (by
      intro i j hi hj
      have hi' : i = 0 := by rw [n1'] at hi; omega
      have hj' : j = 0 := by rw [m1'] at hj; omega
      subst hi' hj'
      rw [hz]; exact h0) (fun _ => hst) hg
  exact ⟨fs1, gs1, s1, s2, ⟨he, b1⟩, ⟨hg, b2⟩,
    (C112_second_roundtrip sciIO_laws h0 sciIO_stable (oneCell_wf _) (oneCell_words _).1 (oneCell_words _).2
      (by simp [oneCell]) (by simp [oneCell]) hcell (by intro h; cases h) hst ⟨he, b1⟩ ⟨hg, b2⟩).2.2, hz⟩

end
end Dissect
