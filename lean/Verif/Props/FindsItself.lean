import Verif.Props.Invariance
import Verif.Props.RowLaws
import Verif.Props.World

/-! # C169: a word known to the core space finds itself -/

namespace Dissect
open Finset
noncomputable section
variable {κ : Type} [DecidableEq κ]

/-- **C169** In two spaces of the same width let `x0` have in the first the vector that `w` has in the second. Then the
neighbours of `x0` in the second space begin with score 1, no score exceeds 1, and `w` is among them with score 1 unless the list
is full of words with score 1 that come before it. -/
theorem C169_same_vector (s s2 : Space κ) (sim : Sim) (x0 w : κ) (n : ℤ) (h : s.WF) (h2 : s2.WF) (hc : 0 < s.mat.nc)
    (hcc : s.mat.nc = s2.mat.nc) (a i : ℕ) (hx0 : s.HasWord a x0) (hw : s2.HasWord i w)
    (hv : ∀ j < s.mat.nc, s.mat.val.get a j = s2.mat.val.get i j)
    (hsim : sim = .euclid ∨ (sim = .cos ∧ ∃ j, j < s.mat.nc ∧ s2.mat.val.get i j ≠ 0)) (hn : 0 < n) :
    s.getSim x0 w sim (some s2) = .ok 1 ∧
    ∃ res, s.getNeighbours x0 n sim (some s2) = .ok res ∧ (∃ p, res.head? = some p ∧ p.2 = 1) ∧
      ((w, 1) ∈ res ∨ ∀ p ∈ res, p.2 = 1 ∧ s2.id2row.idxOf p.1 < i) ∧ (∀ p ∈ res, p.2 ≤ 1) ∧
      ((s2.id2row.length : ℤ) ≤ n → (w, 1) ∈ res) := by
  have hvec : s.mat.val.get a = s2.mat.val.get i := row_ext hcc hv
  have hmem : w ∈ s2.id2row := List.mem_of_getElem? hw
  have hlt : i < s2.id2row.length := (List.getElem?_eq_some_iff.1 hw).1
  have hidx : s2.id2row.idxOf w = i := by
    have e : s2.id2row[i] = w := by
      have hw2 : s2.id2row[i]? = some w := hw
      rw [List.getElem?_eq_getElem hlt] at hw2
      exact Option.some.inj hw2
    rw [← e]
    exact h2.rows.nodup.idxOf_getElem i hlt
  have hself : s.getSim x0 w sim (some s2) = .ok 1 := by
    rw [Space.getSim_words2 (target := s2) (space2 := some s2) rfl h h2 hc hcc hx0 hw]
    rw [hvec]
    rcases hsim with rfl | ⟨rfl, j, hj, h0⟩
    · rw [simVal_euclid_self]
    · rw [simVal_cos_self]
      intro hz
      exact h0 (len2_eq_zero.1 hz j hj)
  have hle : ∀ x ∈ s2.id2row, ∀ v, s.getSim x0 x sim (some s2) = .ok v → v ≤ 1 := by
    intro x hx v hv
    obtain ⟨k, hk⟩ := Space.hasWord_of_mem hx
    rw [Space.getSim_words2 (target := s2) (space2 := some s2) rfl h h2 hc hcc hx0 hk] at hv
    rw [← ok_inj hv]
    rcases hsim with rfl | ⟨rfl, _⟩
    · exact simVal_euclid_le_one ..
    · exact simVal_cos_le_one ..
  obtain ⟨res, sc, e1, e2, e3⟩ := C09_top_n s s2 (some s2) sim x0 n rfl h h2 hc hcc (List.mem_of_getElem? hx0) (by omega)
  have hscw : sc w = 1 := by
    have := e2 w hmem
    rw [hself] at this
    exact (ok_inj this).symm
  have hsc : ∀ x ∈ s2.id2row, sc x ≤ 1 := fun x hx => hle x hx _ (e2 x hx)
  have hres : ∀ p ∈ res, p.2 ≤ 1 := by
    intro p hp
    rw [(e3.entries p hp).2]
    exact hsc _ (e3.entries p hp).1
  have hnot : w ∉ res.map Prod.fst → ∀ p ∈ res, p.2 = 1 ∧ s2.id2row.idxOf p.1 < i := by
    intro hnw p hp
    have hb := e3.best p hp w hmem hnw
    have := hres p hp
    unfold RanksBefore at hb
    simp only [hscw, hidx] at hb
    rcases hb with hb | ⟨hb, hb'⟩
    · exact absurd hb (by linarith)
    · exact ⟨hb.symm, hb'⟩
  have hin : w ∈ res.map Prod.fst → (w, 1) ∈ res := by
    intro hm
    obtain ⟨q, hq, rfl⟩ := List.mem_map.1 hm
    have : q = (q.1, 1) := Prod.ext rfl (by rw [(e3.entries q hq).2, hscw])
    rw [← this]; exact hq
  have hor : (w, 1) ∈ res ∨ ∀ p ∈ res, p.2 = 1 ∧ s2.id2row.idxOf p.1 < i := by
    by_cases hm : w ∈ res.map Prod.fst
    · exact Or.inl (hin hm)
    · exact Or.inr (hnot hm)
  have hpos : 0 < res.length := by
    have := e3.length
    omega
  obtain ⟨p, rest, hpr⟩ : ∃ p rest, res = p :: rest := by
    cases res with
    | nil => simp at hpos
    | cons p rest => exact ⟨p, rest, rfl⟩
  refine ⟨hself, res, e1, ⟨p, by rw [hpr]; rfl, ?_⟩, hor, hres, ?_⟩
  · rcases hor with hm | hall
    · rw [hpr, List.mem_cons] at hm
      rcases hm with rfl | hm
      · rfl
      · have hord := e3.ordered
        rw [hpr, List.pairwise_cons] at hord
        have hb := hord.1 _ hm
        have := hres p (by rw [hpr]; exact List.mem_cons_self)
        unfold RanksBefore at hb
        rcases hb with hb | ⟨hb, _⟩
        · exact absurd hb (by simp only; linarith)
        · exact hb.symm
    · exact (hall p (by rw [hpr]; exact List.mem_cons_self)).1
  · intro hfull
    apply hin
    by_contra hnw
    have hsub : (w :: res.map Prod.fst) ⊆ s2.id2row := by
      intro x hx
      rcases List.mem_cons.1 hx with rfl | hx
      · exact hmem
      · obtain ⟨q, hq, rfl⟩ := List.mem_map.1 hx
        exact (e3.entries q hq).1
    have hnd : (w :: res.map Prod.fst).Nodup := List.nodup_cons.2 ⟨hnw, e3.distinct⟩
    have := (List.subperm_of_subset hnd hsub).length_le
    simp only [List.length_cons, List.length_map] at this
    have := e3.length
    omega

/-- **C169** A word given to a peripheral space with the counts that some core word has finds that word among its neighbours in
the core space, with score 1: whatever the scalings, feature selections and SVD reductions of the core. -/
theorem C169_finds_itself (env : Env) (raw core p : Space κ) (ts : List Trans) (hwf : raw.WF) (hops : raw.ops = [])
    (hr : 0 < raw.mat.nr) (hc : 0 < raw.mat.nc) (hts : ∀ t ∈ ts, t.Exact)
    (hsvd : ∀ pre k post s, ts = pre ++ .dimred (.svd k) :: post → raw.applyAll env pre = .ok s →
      SvdCallOk env s.mat k)
    (hcore : raw.applyAll env ts = .ok core) (m : TMat ℝ) (ws : List κ) (d : Option (Dict κ ℤ))
    (hp : Periph.new core m ws d = .ok p) (hnc : m.nc = raw.mat.nc) (a i : ℕ) (ha : a < m.nr) (x w : κ) (hx : ws[a]? = some x)
    (hw : raw.HasWord i w) (he : ∀ j < m.nc, m.val.get a j = raw.mat.val.get i j) (n : ℤ) (hn : 0 < n) (sim : Sim)
    (hsim : sim = .euclid ∨ (sim = .cos ∧ ∃ j, j < core.mat.nc ∧ core.mat.val.get i j ≠ 0)) :
    p.getSim x w sim (some core) = .ok 1 ∧
    ∃ res, p.getNeighbours x n sim (some core) = .ok res ∧ (∃ q, res.head? = some q ∧ q.2 = 1) ∧
      ((w, 1) ∈ res ∨ ∀ q ∈ res, q.2 = 1 ∧ core.id2row.idxOf q.1 < i) ∧ (∀ q ∈ res, q.2 ≤ 1) ∧
      ((core.id2row.length : ℤ) ≤ n → (w, 1) ∈ res) := by
  obtain ⟨hrow, _, hcwf⟩ := applyAll_rows hcore
  have hpwf := periphNew_wf (hcwf hwf) hp
  have hR := reproduces_applyAll hops hr hc hts hsvd hcore
  have hout := ((models_projAll core.ops).eq_ok hr hR.proj).2
  obtain ⟨h1, _, h3, _⟩ := periphNew_eq_ok hp
  have hi : i < raw.mat.nr := by rw [hwf.nrows]; exact (List.getElem?_eq_some_iff.1 hw).1
  have ho := ((models_projAll core.ops).eq_ok (by omega) h1).2
  have hw' : p.mat.nc = core.mat.nc := by
    rw [ho, hout]
    show (opsMap core.ops).width m.nc = (opsMap core.ops).width raw.mat.nc
    rw [hnc]
  have hv : ∀ j, p.mat.val.get a j = core.mat.val.get i j := by
    intro j
    rw [ho, hout, RowMap.out_row _ _ ha, RowMap.out_row _ _ hi, row_ext hnc he, hnc]
  exact C169_same_vector p core sim x w n hpwf (hcwf hwf) (by rw [hw']; exact hR.wide) hw' a i
    (by unfold Space.HasWord; rw [h3]; exact hx) (by unfold Space.HasWord; rw [hrow]; exact hw) (fun j _ => hv j)
    (by rw [hw']; exact hsim) hn

end
end Dissect
