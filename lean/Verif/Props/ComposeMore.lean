import Verif.Props.Compose
import Verif.Props.Lexical

/-! # C115: a composed vector depends on its own triple only; C116: symmetric models -/

namespace Dissect
open Finset
noncomputable section
variable {κ : Type} [DecidableEq κ]

/-! ## C115 -/

/-- A successful `compose` call has a usable triple and distinct phrases, and the result is as described by C38. -/
theorem compose_success {c : Composer κ} {data : List (Triple κ)} {args : ArgSpace κ} {s1 s2 r : Space κ} {w : ℕ}
    (hx : args.extract = .ok (s1, s2)) (h1 : s1.WF) (h2 : s2.WF) (hf : c.model.Fits s1.mat.nc s2.mat.nc w)
    (hc : c.ColumnsFit w) (h : (c.compose data args).2 = .ok r) :
    knownTriples s1 s2 data ≠ [] ∧ ((knownTriples s1 s2 data).map (·.2.2)).Nodup ∧
      IsComposition c.model s1 s2 (knownTriples s1 s2 data) w r := by
  have hn : ((knownTriples s1 s2 data).map (·.2.2)).Nodup := by
    by_contra hn
    rw [C38_duplicate_phrase c data args s1 s2 w hx h1 h2 hf hn] at h
    cases h
  have hv : knownTriples s1 s2 data ≠ [] := by
    intro hv
    by_cases hd : data = []
    · subst hd
      have := (C39_refuted ⟨fun A => .ok (A, [], A), fun A _ => .ok (A, [], A), fun A => .ok A, fun A _ => .ok A⟩ c args s1 s2 s1 hx).1
      rw [this] at h
      cases h
    · rw [C38_no_known_triple c data args s1 s2 hx h1 h2 hd hv] at h
      cases h
  obtain ⟨r', hr', hcomp⟩ := C38_compose c data args s1 s2 w hx h1 h2 hf hc hv hn
  rw [h] at hr'
  injection hr' with hr'
  subst hr'
  exact ⟨hv, hn, hcomp⟩

theorem idxOf_phrase {l : List (Triple κ)} (hn : (l.map (·.2.2)).Nodup) {t : Triple κ} (ht : t ∈ l) :
    l[(l.map (·.2.2)).idxOf t.2.2]? = some t := by
  obtain ⟨k, hk, rfl⟩ := List.mem_iff_getElem.1 ht
  have hk' : k < (l.map (·.2.2)).length := by simpa using hk
  have := List.Nodup.idxOf_getElem hn k hk'
  rw [List.getElem_map] at this
  rw [this, List.getElem?_eq_getElem hk]

theorem mem_known {s1 s2 : Space κ} {data : List (Triple κ)} {t : Triple κ} :
    t ∈ knownTriples s1 s2 data ↔ t ∈ data ∧ t.1 ∈ s1.id2row ∧ t.2.1 ∈ s2.id2row := by
  unfold knownTriples
  rw [List.mem_filter, decide_eq_true_eq]

/-- The vector of a phrase in a composed space. -/
theorem composed_vec {c : CModel} {s1 s2 r : Space κ} {l : List (Triple κ)} {w : ℕ} (hn : (l.map (·.2.2)).Nodup)
    (h : IsComposition c s1 s2 l w r) {t : Triple κ} (ht : t ∈ l) (m1 : t.1 ∈ s1.id2row) (m2 : t.2.1 ∈ s2.id2row) {j : ℕ}
    (hj : j < w) : r.vecOf t.2.2 j = c.vec s1.mat.nc s2.mat.nc (s1.vecOf t.1) (s2.vecOf t.2.1) j := by
  unfold Space.vecOf
  rw [h.labels]
  exact h.vectors _ t.1 t.2.1 t.2.2 _ _ (idxOf_phrase hn ht) (Space.hasWord_idxOf m1) (Space.hasWord_idxOf m2) j hj

/-- **C115** a triple that occurs in two data lists gets the same vector in both composed spaces (with the same model and
argument spaces), whatever the other triples are and however they are ordered. -/
theorem C115_own_triple (c c' : Composer κ) (hcc : c.model = c'.model) (data data' : List (Triple κ)) (args : ArgSpace κ)
    (s1 s2 r r' : Space κ) (w : ℕ) (hx : args.extract = .ok (s1, s2)) (h1 : s1.WF) (h2 : s2.WF)
    (hf : c.model.Fits s1.mat.nc s2.mat.nc w) (hc : c.ColumnsFit w) (hc' : c'.ColumnsFit w)
    (hr : (c.compose data args).2 = .ok r) (hr' : (c'.compose data' args).2 = .ok r')
    (t : Triple κ) (ht : t ∈ data) (ht' : t ∈ data') (m1 : t.1 ∈ s1.id2row) (m2 : t.2.1 ∈ s2.id2row) :
    t.2.2 ∈ r.id2row ∧ t.2.2 ∈ r'.id2row ∧ ∀ j < w, r.vecOf t.2.2 j = r'.vecOf t.2.2 j := by
  obtain ⟨_, n, k⟩ := compose_success hx h1 h2 hf hc hr
  obtain ⟨_, n', k'⟩ := compose_success hx h1 h2 (hcc ▸ hf) hc' hr'
  have t1 := mem_known.2 ⟨ht, m1, m2⟩
  have t2 := mem_known.2 ⟨ht', m1, m2⟩
  refine ⟨by rw [k.labels]; exact List.mem_map.2 ⟨t, t1, rfl⟩, by rw [k'.labels]; exact List.mem_map.2 ⟨t, t2, rfl⟩,
    fun j hj => ?_⟩
  rw [composed_vec n k t1 m1 m2 hj, composed_vec n' k' t2 m1 m2 hj, hcc]

/-- **C115** composing a list in two parts (each with a usable triple) gives the rows of the whole, one part after the
other. -/
theorem C115_two_parts (c : Composer κ) (d1 d2 : List (Triple κ)) (args : ArgSpace κ)
    (s1 s2 r : Space κ) (w : ℕ) (hx : args.extract = .ok (s1, s2)) (h1 : s1.WF) (h2 : s2.WF)
    (hf : c.model.Fits s1.mat.nc s2.mat.nc w) (hc : c.ColumnsFit w)
    (hr : (c.compose (d1 ++ d2) args).2 = .ok r)
    (k1 : ∃ t ∈ d1, t.1 ∈ s1.id2row ∧ t.2.1 ∈ s2.id2row) (k2 : ∃ t ∈ d2, t.1 ∈ s1.id2row ∧ t.2.1 ∈ s2.id2row) :
    ∃ r1 r2, (c.compose d1 args).2 = .ok r1 ∧ (c.compose d2 args).2 = .ok r2 ∧ r.id2row = r1.id2row ++ r2.id2row ∧
      (∀ k j, k < r1.id2row.length → j < w → r.mat.val.get k j = r1.mat.val.get k j) ∧
      ∀ k j, k < r2.id2row.length → j < w → r.mat.val.get (r1.id2row.length + k) j = r2.mat.val.get k j := by
  obtain ⟨_, n, q⟩ := compose_success hx h1 h2 hf hc hr
  have happ : knownTriples s1 s2 (d1 ++ d2) = knownTriples s1 s2 d1 ++ knownTriples s1 s2 d2 := List.filter_append ..
  rw [happ] at n q
  rw [List.map_append] at n
  obtain ⟨r1, e1, q1⟩ := C38_compose c d1 args s1 s2 w hx h1 h2 hf hc
    (by obtain ⟨t, a, b⟩ := k1; exact List.ne_nil_of_mem (mem_known.2 ⟨a, b⟩)) (List.nodup_append.1 n).1
  obtain ⟨r2, e2, q2⟩ := C38_compose c d2 args s1 s2 w hx h1 h2 hf hc
    (by obtain ⟨t, a, b⟩ := k2; exact List.ne_nil_of_mem (mem_known.2 ⟨a, b⟩)) (List.nodup_append.1 n).2.1
  have hk : ∀ d, ∀ t ∈ knownTriples s1 s2 d, t.1 ∈ s1.id2row ∧ t.2.1 ∈ s2.id2row := fun d t ht => (mem_known.1 ht).2
  refine ⟨r1, r2, e1, e2, by rw [q.labels, q1.labels, q2.labels, List.map_append], ?_, ?_⟩
  · intro k j hk1 hj
    rw [q1.labels, List.length_map] at hk1
    obtain ⟨m1, m2⟩ := hk d1 _ (List.getElem_mem hk1)
    have g1 : (knownTriples s1 s2 d1)[k]? = some (knownTriples s1 s2 d1)[k] := List.getElem?_eq_getElem hk1
    have g : (knownTriples s1 s2 d1 ++ knownTriples s1 s2 d2)[k]? = some (knownTriples s1 s2 d1)[k] := by
      rw [List.getElem?_append_left hk1, g1]
    rw [q.vectors k _ _ _ _ _ g (Space.hasWord_idxOf m1) (Space.hasWord_idxOf m2) j hj,
      q1.vectors k _ _ _ _ _ g1 (Space.hasWord_idxOf m1) (Space.hasWord_idxOf m2) j hj]
  · intro k j hk2 hj
    rw [q2.labels, List.length_map] at hk2
    rw [q1.labels, List.length_map]
    obtain ⟨m1, m2⟩ := hk d2 _ (List.getElem_mem hk2)
    have g2 : (knownTriples s1 s2 d2)[k]? = some (knownTriples s1 s2 d2)[k] := List.getElem?_eq_getElem hk2
    have g : (knownTriples s1 s2 d1 ++ knownTriples s1 s2 d2)[(knownTriples s1 s2 d1).length + k]? =
        some (knownTriples s1 s2 d2)[k] := by
      rw [List.getElem?_append_right (by omega), Nat.add_sub_cancel_left, g2]
    rw [q.vectors _ _ _ _ _ _ g (Space.hasWord_idxOf m1) (Space.hasWord_idxOf m2) j hj,
      q2.vectors k _ _ _ _ _ g2 (Space.hasWord_idxOf m1) (Space.hasWord_idxOf m2) j hj]

/-- A successful `compose` of a lexical function has a usable triple and distinct phrases. -/
theorem lexCompose_success {m : LexFun κ} {fs arg r : Space κ} {data : List (Triple κ)} (hm : m.functions = some fs)
    (hf : fs.WF) (ha : arg.WF) (hr : m.compose data arg = .ok r) :
    knownTriples fs arg data ≠ [] ∧ ((knownTriples fs arg data).map (·.2.2)).Nodup := by
  unfold LexFun.compose at hr
  rw [hm] at hr
  simp only at hr
  rw [validData_eq _ _ _ data (knownTriples fs arg data) (by rw [knownTriples_eq hf ha])] at hr
  by_cases hd : data = []
  · rw [if_pos hd] at hr; cases hr
  · by_cases hv : knownTriples fs arg data = []
    · rw [if_neg hd, if_pos hv] at hr; cases hr
    · rw [if_neg hd, if_neg hv] at hr
      simp only [ok_bind, bind_eq_ok] at hr
      obtain ⟨vs, _, M, _, hr⟩ := hr
      obtain ⟨_, e2, _, _, _, _, _, wf⟩ := Space.new_eq_ok hr
      exact ⟨hv, e2 ▸ wf.rows.nodup⟩

/-- **C115** lexical functions: the same. -/
theorem C115_lexical (m : LexFun κ) (fs arg r r' : Space κ) (data data' : List (Triple κ)) (sh : List ℕ)
    (hm : m.functions = some fs) (hf : fs.WF) (ha : arg.WF) (hsh : sh ≠ []) (hpos : 0 < sh.prod) (hn : 0 < arg.mat.nc)
    (hs : fs.elemShape = sh ++ [if m.intercept then arg.mat.nc + 1 else arg.mat.nc])
    (hcn : m.columns.Nodup) (hcl : m.columns ≠ [] → m.columns.length = sh.prod)
    (hr : m.compose data arg = .ok r) (hr' : m.compose data' arg = .ok r')
    (t : Triple κ) (ht : t ∈ data) (ht' : t ∈ data') (m1 : t.1 ∈ fs.id2row) (m2 : t.2.1 ∈ arg.id2row) :
    t.2.2 ∈ r.id2row ∧ t.2.2 ∈ r'.id2row ∧ ∀ j < sh.prod, r.vecOf t.2.2 j = r'.vecOf t.2.2 j := by
  have t1 := mem_known.2 ⟨ht, m1, m2⟩
  have t2 := mem_known.2 ⟨ht', m1, m2⟩
  have hnd := (lexCompose_success hm hf ha hr).2
  have hnd' := (lexCompose_success hm hf ha hr').2
  obtain ⟨q, q1, _, q3, _, _, q6⟩ := C45_compose m fs arg data sh hm hf ha hsh hpos hn hs hcn hcl (List.ne_nil_of_mem t1) hnd
  obtain ⟨p, p1, _, p3, _, _, p6⟩ := C45_compose m fs arg data' sh hm hf ha hsh hpos hn hs hcn hcl (List.ne_nil_of_mem t2) hnd'
  rw [hr] at q1
  injection q1 with q1
  subst q1
  rw [hr'] at p1
  injection p1 with p1
  subst p1
  refine ⟨by rw [q3]; exact List.mem_map.2 ⟨t, t1, rfl⟩, by rw [p3]; exact List.mem_map.2 ⟨t, t2, rfl⟩, fun j hj => ?_⟩
  unfold Space.vecOf
  rw [q3, p3, q6 _ t.1 t.2.1 t.2.2 (idxOf_phrase hnd t1) j hj, p6 _ t.1 t.2.1 t.2.2 (idxOf_phrase hnd' t2) j hj]

/-! ## C116 -/

/-- The triple with its two words exchanged. -/
def swapTriple (t : Triple κ) : Triple κ := (t.2.1, t.1, t.2.2)

theorem known_swap (s1 s2 : Space κ) (data : List (Triple κ)) :
    knownTriples s2 s1 (data.map swapTriple) = (knownTriples s1 s2 data).map swapTriple := by
  unfold knownTriples
  rw [List.filter_map]
  congr 1
  refine List.filter_congr (fun t _ => ?_)
  exact decide_eq_decide.2 and_comm

/-- **C116** exchanging the two spaces, the two words of every triple and (for `WeightedAdditive`) the two weights gives
the same phrases with the same vectors and columns; in particular `Multiplicative` and the default `WeightedAdditive` do
not depend on the order of the constituents. -/
theorem C116_symmetric (c c' : Composer κ)
    (hcc : (c = ⟨.multiplicative, none⟩ ∧ c' = ⟨.multiplicative, none⟩) ∨
      ∃ a b, c = ⟨.weighted a b, none⟩ ∧ c' = ⟨.weighted b a, none⟩)
    (data : List (Triple κ)) (s1 s2 r : Space κ) (h1 : s1.WF) (h2 : s2.WF) (hw : s1.mat.nc = s2.mat.nc)
    (hpos : 0 < s1.mat.nc) (hr : (c.compose data (.tuple [s1, s2])).2 = .ok r) :
    ∃ r', (c'.compose (data.map swapTriple) (.tuple [s2, s1])).2 = .ok r' ∧ r'.id2row = r.id2row ∧ r'.id2col = r.id2col ∧
      r'.mat.nc = r.mat.nc ∧ ∀ ph ∈ r.id2row, ∀ j < r.mat.nc, r'.vecOf ph j = r.vecOf ph j := by
  have hcol : s1.id2col = s2.id2col := by
    by_contra hne
    rw [C38_bad_spaces c data [s1, s2] (Or.inr ⟨s1, s2, rfl, hne⟩)] at hr
    cases hr
  have hx : (ArgSpace.tuple [s1, s2]).extract = .ok (s1, s2) := (extract_iff _ _ _).2 (Or.inr ⟨rfl, hcol⟩)
  have hx' : (ArgSpace.tuple [s2, s1]).extract = .ok (s2, s1) := (extract_iff _ _ _).2 (Or.inr ⟨rfl, hcol.symm⟩)
  have hf : c.model.Fits s1.mat.nc s2.mat.nc s1.mat.nc := by
    rcases hcc with ⟨rfl, _⟩ | ⟨a, b, rfl, _⟩ <;> exact ⟨hpos, hw ▸ hpos, hpos, hw, rfl⟩
  have hf' : c'.model.Fits s2.mat.nc s1.mat.nc s1.mat.nc := by
    rcases hcc with ⟨_, rfl⟩ | ⟨a, b, _, rfl⟩ <;> exact ⟨hw ▸ hpos, hpos, hpos, hw.symm, hw⟩
  have hc : c.ColumnsFit s1.mat.nc := by
    rcases hcc with ⟨rfl, _⟩ | ⟨a, b, rfl, _⟩ <;> · intro cols h; cases h
  have hc' : c'.ColumnsFit s1.mat.nc := by
    rcases hcc with ⟨_, rfl⟩ | ⟨a, b, _, rfl⟩ <;> · intro cols h; cases h
  obtain ⟨hv, n, q⟩ := compose_success hx h1 h2 hf hc hr
  have hph : (knownTriples s2 s1 (data.map swapTriple)).map (·.2.2) = (knownTriples s1 s2 data).map (·.2.2) := by
    rw [known_swap, List.map_map]
    rfl
  obtain ⟨r', e, q'⟩ := C38_compose c' (data.map swapTriple) (.tuple [s2, s1]) s2 s1 s1.mat.nc hx' h2 h1 hf' hc'
    (by rw [known_swap]; simpa using hv) (by rw [hph]; exact n)
  have hl : r'.id2row = r.id2row := by rw [q'.labels, q.labels, hph]
  refine ⟨r', e, hl, ?_, by rw [q'.width, q.width], ?_⟩
  · have a := (C38_columns c data _ s1 s2 r hx hr).2.1
    have b := (C38_columns c' _ _ s2 s1 r' hx' e).2.1
    rw [a (by rcases hcc with ⟨rfl, _⟩ | ⟨_, _, rfl, _⟩ <;> rfl)
        (by rcases hcc with ⟨rfl, _⟩ | ⟨_, _, rfl, _⟩ <;> · intro _ _ _ _ h; cases h),
      b (by rcases hcc with ⟨_, rfl⟩ | ⟨_, _, _, rfl⟩ <;> rfl)
        (by rcases hcc with ⟨_, rfl⟩ | ⟨_, _, _, rfl⟩ <;> · intro _ _ _ _ h; cases h), hcol]
  · intro ph hph' j hj
    rw [q.labels] at hph'
    obtain ⟨t, ht, rfl⟩ := List.mem_map.1 hph'
    obtain ⟨_, m1, m2⟩ := mem_known.1 ht
    rw [q.width] at hj
    have ht' : swapTriple t ∈ knownTriples s2 s1 (data.map swapTriple) := by
      rw [known_swap]; exact List.mem_map.2 ⟨t, ht, rfl⟩
    rw [composed_vec n q ht m1 m2 hj]
    have := composed_vec (by rw [hph]; exact n) q' ht' m2 m1 hj
    rw [show (swapTriple t).2.2 = t.2.2 from rfl] at this
    rw [this]
    rcases hcc with ⟨rfl, rfl⟩ | ⟨a, b, rfl, rfl⟩
    · exact mul_comm _ _
    · exact add_comm _ _

/-- non-vacuity of C115 and C116: two lists with a common triple, dense and sparse argument spaces. -/
example : ∃ (s1 s2 r r' : Space String) (data' : List (Triple String)), s1.WF ∧ s2.WF ∧ s1.mat.nc = 2 ∧ s2.mat.nc = 2 ∧
    ((newMultiplicative : Composer String).compose exData (.tuple [s1, s2])).2 = .ok r ∧
    ((newMultiplicative : Composer String).compose data' (.tuple [s1, s2])).2 = .ok r' ∧
    ("red", "car", "red_car") ∈ exData ∧ ("red", "car", "red_car") ∈ data' ∧ r'.id2row = ["car_red", "red_car"] ∧
    "red" ∈ s1.id2row ∧ "car" ∈ s2.id2row := by
  obtain ⟨s1, _, w1, n1, r1, c1⟩ := exArg_ok .dense ["f1", "f2"] (by decide) rfl
  obtain ⟨s2, _, w2, n2, r2, c2⟩ := exArg_ok .sparse ["f1", "f2"] (by decide) rfl
  have hx : (ArgSpace.tuple [s1, s2]).extract = .ok (s1, s2) := (extract_iff _ _ _).2 (Or.inr ⟨rfl, c1.trans c2.symm⟩)
  have hk : knownTriples s1 s2 [("car", "red", "car_red"), ("red", "car", "red_car")] =
      [("car", "red", "car_red"), ("red", "car", "red_car")] := by
    unfold knownTriples; rw [r1, r2]; rfl
  obtain ⟨q, hq, _⟩ := C38_compose (newMultiplicative : Composer String) exData _ s1 s2 2 hx w1 w2
    ⟨by omega, by omega, by omega, n1.trans n2.symm, n1.symm⟩ (by intro cols h; cases h) (by rw [exData_known r1 r2]; simp)
    (by rw [exData_known r1 r2]; simp)
  obtain ⟨q', hq', k'⟩ := C38_compose (newMultiplicative : Composer String)
    [("car", "red", "car_red"), ("red", "car", "red_car")] _ s1 s2 2 hx w1 w2
    ⟨by omega, by omega, by omega, n1.trans n2.symm, n1.symm⟩ (by intro cols h; cases h) (by rw [hk]; simp)
    (by rw [hk]; simp)
  exact ⟨s1, s2, q, q', [("car", "red", "car_red"), ("red", "car", "red_car")], w1, w2, n1, n2, hq, hq', by simp [exData], by simp,
    by rw [k'.labels, hk]; rfl, by rw [r1]; simp, by rw [r2]; simp⟩

end
end Dissect
