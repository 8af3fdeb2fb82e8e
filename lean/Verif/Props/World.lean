import Verif.Model.World
import Verif.Props.Operations

/-! # Histories over several spaces: C02 (well-formedness), C29 (aliasing), C73 (negative positions) -/

namespace Dissect
open Finset
variable {κ : Type} [DecidableEq κ]

/-- Every stored position is non-negative. -/
def PlainDict (d : Dict κ ℤ) : Prop := ∀ w v, d.get? w = some v → 0 ≤ v

/-! ### Single calls keep spaces well formed -/

theorem plain_list2dict {l : List κ} {d : Dict κ ℤ} (h : list2dict l = .ok d) : PlainDict d := by
  intro w v hv
  obtain ⟨hl, _, hi⟩ := list2dict_ok h
  have hw : w ∈ l := (hl.keys w).2 ⟨v, hv⟩
  obtain ⟨i, hi'⟩ := List.mem_iff_getElem?.1 hw
  rw [hi i w hi'] at hv
  injection hv with hv
  omega

theorem plain_resolveMap {l : List κ} {d : Option (Dict κ ℤ)} {r : Dict κ ℤ} (h : Space.resolveMap l d = .ok r)
    (hd : ∀ d', d = some d' → PlainDict d') : PlainDict r := by
  cases d with
  | none => exact plain_list2dict h
  | some d' =>
    rw [(Space.resolveMap_eq_ok h).2 d' rfl]
    exact hd d' rfl

theorem stepCols_labels {op : Op κ} {c c' : List κ} {d d' : Dict κ ℤ} (hl : Labels c d)
    (h : stepCols op (c, d) = .ok (c', d')) : Labels c' d' := by
  cases op with
  | scaling t u =>
    have := ok_inj h
    simp only [Prod.mk.injEq] at this
    obtain ⟨rfl, rfl⟩ := this
    exact hl
  | dimred t u =>
    have := ok_inj h
    simp only [Prod.mk.injEq] at this
    obtain ⟨rfl, rfl⟩ := this
    exact Labels.empty
  | featsel k cr sel orig =>
    simp only [stepCols, Space.selectedColumns] at h
    split at h
    · have := ok_inj h
      simp only [Prod.mk.injEq] at this
      obtain ⟨rfl, rfl⟩ := this
      exact Labels.empty
    · have := ok_inj h
      simp only [Prod.mk.injEq] at this
      obtain ⟨rfl, rfl⟩ := this
      exact Labels.empty
    · split at h
      · cases h
      · simp only [bind_eq_ok, pure_eq_ok] at h
        obtain ⟨cols, _, dd, hdd, h⟩ := h
        have := ok_inj h
        simp only [Prod.mk.injEq] at this
        obtain ⟨rfl, rfl⟩ := this
        exact (list2dict_ok hdd).1

theorem allCols_labels {ops : List (Op κ)} : ∀ {c c' : List κ} {d d' : Dict κ ℤ}, Labels c d →
    allCols ops (c, d) = .ok (c', d') → Labels c' d' := by
  induction ops with
  | nil =>
    intro c c' d d' hl h
    have := ok_inj h
    simp only [Prod.mk.injEq] at this
    obtain ⟨rfl, rfl⟩ := this
    exact hl
  | cons op ops ih =>
    intro c c' d d' hl h
    simp only [allCols, bind_eq_ok] at h
    obtain ⟨⟨c1, d1⟩, h1, h2⟩ := h
    exact ih (stepCols_labels hl h1) h2

theorem periphNew_wf {core p : Space κ} (hcore : core.WF) {m : TMat ℝ} {ws : List κ} {d : Option (Dict κ ℤ)}
    (h : Periph.new core m ws d = .ok p) : p.WF := by
  obtain ⟨_, h2, h3, _, h5, h6, h7⟩ := periphNew_eq_ok h
  have hrows : Labels p.id2row p.row2id := by rw [h3]; exact (Space.resolveMap_eq_ok h6).1
  have hcols := allCols_labels hcore.cols h2
  obtain ⟨n1, n2⟩ := (Space.shapeCheck_ok_iff hrows hcols).1 h7
  exact ⟨hrows, hcols, n1, n2, by rw [h5]; simp⟩

/-- A successful `add_rows` keeps the space well formed, its dictionary plain, and appends the labels. -/
theorem addRows_wf {p p' : Space κ} (hp : p.WF) (hpl : PlainDict p.row2id) {m : TMat ℝ} {ws : List κ}
    (h : Periph.addRows p m ws = (p', .ok ())) :
    p'.WF ∧ PlainDict p'.row2id ∧ p'.id2row = p.id2row ++ ws := by
  unfold Periph.addRows at h
  rcases hd : addItemsToDict p.row2id ws with ⟨d, out⟩
  rw [hd] at h
  cases out with
  | error e => simp at h
  | ok u =>
    simp only at h
    split at h
    · simp at h
    · rcases hpo : Periph.projectOps p.id2col p.col2id m p.ops with ⟨⟨c, cd⟩, out⟩
      rw [hpo] at h
      simp only at h
      cases out with
      | error e => simp at h
      | ok m' =>
        simp only at h
        cases hv : p.mat.vstack m' with
        | error e => rw [hv] at h; simp at h
        | ok mm =>
          rw [hv] at h
          simp only [Prod.mk.injEq] at h
          obtain ⟨rfl, hs⟩ := h
          obtain ⟨hlab, hpl'⟩ := hp.rows.append hpl hd
          have hsp := (projectOps_spec p.ops p.id2col p.col2id m).1 m' (by rw [hpo])
          rw [hpo] at hsp
          have hcols := allCols_labels hp.cols hsp.2
          obtain ⟨n1, n2⟩ := (Space.shapeCheck_ok_iff hlab hcols).1 hs
          refine ⟨⟨hlab, hcols, n1, n2, ?_⟩, hpl', rfl⟩
          show p.elemShape.prod = mm.nc
          rw [hp.shape]
          unfold TMat.vstack at hv
          split at hv
          · split at hv
            · rw [(TMat.wrap_eq_ok hv).1]; rfl
            · cases hv
          · cases hv

theorem setMatrix_wf {s s' : Space κ} (h : s.WF) (hne : s.id2row ≠ []) {m : TMat ℝ} (hs : s.setMatrix m = .ok s') :
    s'.WF := by
  obtain ⟨e1, e2, e3, e4⟩ := (C07_accepts_iff_partial s h hne m).1 ⟨s', hs⟩
  rw [C07_uses_new_matrix_partial s s' m hs]
  refine ⟨h.rows, h.cols, e1, fun _ => e4, ?_⟩
  have hpos := List.length_pos_iff.2 hne
  have hc : s.id2col ≠ [] := by
    intro hc
    rw [hc, List.length_nil] at e4
    rw [e4] at e3
    omega
  show s.elemShape.prod = m.nc
  rw [h.shape, h.ncols hc, e4]

theorem vstack_plain {s1 s2 s : Space κ} (h1 : s1.WF) (hp : PlainDict s1.row2id) (h : Space.vstack s1 s2 = .ok s) :
    PlainDict s.row2id := by
  unfold Space.vstack at h
  split at h
  · cases h
  · split at h
    · cases h
    · rcases ha : addItemsToDict s1.row2id s2.id2row with ⟨d, out⟩
      rw [ha] at h
      simp only [bind_eq_ok] at h
      obtain ⟨_, hout, l, _, h⟩ := h
      subst hout
      split at h
      · simp only [bind_eq_ok] at h
        obtain ⟨m, _, h⟩ := h
        obtain ⟨_, _, _, _, _, hr, _⟩ := Space.new_eq_ok h
        rw [(Space.resolveMap_eq_ok hr).2 _ rfl]
        exact (h1.rows.append hp ha).2
      · cases h

/-! ### The world -/

namespace World

/-- All objects are well formed, all dictionaries plain, all references valid. -/
structure Inv (w : World κ) : Prop where
  refs : ∀ o ∈ w.objs, o.rowRef < w.dicts.length
  plain : ∀ d ∈ w.dicts, PlainDict d
  wf : ∀ i s, w.view i = some s → s.WF

theorem view_plain {w : World κ} (h : w.Inv) {i : ℕ} {s : Space κ} (hv : w.view i = some s) : PlainDict s.row2id := by
  unfold view deref at hv
  rw [Option.bind_eq_some_iff] at hv
  obtain ⟨o, _, hv⟩ := hv
  rw [Option.map_eq_some_iff] at hv
  obtain ⟨d, hd, rfl⟩ := hv
  exact h.plain d (List.mem_of_getElem? hd)

theorem view_pushAt_old {w : World κ} {s : Space κ} {r : ℕ} {p : Bool} {i : ℕ} (hi : i < w.objs.length) :
    (w.pushAt s r p).view i = w.view i := by
  unfold view pushAt
  rw [List.getElem?_append_left hi]
  rfl

theorem view_pushAt_new {w : World κ} {s : Space κ} {r : ℕ} {p : Bool} (hr : w.dicts[r]? = some s.row2id) :
    (w.pushAt s r p).view w.objs.length = some s := by
  unfold view pushAt
  simp [deref, hr]

theorem view_alloc {w : World κ} (hrefs : ∀ o ∈ w.objs, o.rowRef < w.dicts.length) (d : Dict κ ℤ) (i : ℕ) :
    (⟨w.dicts ++ [d], w.objs⟩ : World κ).view i = w.view i := by
  unfold view
  cases ho : w.objs[i]? with
  | none => rfl
  | some o =>
    have := hrefs o (List.mem_of_getElem? ho)
    simp only [Option.bind_some, deref]
    rw [List.getElem?_append_left this]

theorem view_of_lt {w : World κ} {i : ℕ} (hi : w.objs.length ≤ i) : w.view i = none := by
  unfold view
  rw [List.getElem?_eq_none hi]
  rfl

theorem inv_alloc {w : World κ} (h : w.Inv) {d : Dict κ ℤ} (hd : PlainDict d) :
    (⟨w.dicts ++ [d], w.objs⟩ : World κ).Inv := by
  refine ⟨fun o ho => ?_, fun x hx => ?_, fun i s hv => ?_⟩
  · have := h.refs o ho
    simp only [List.length_append, List.length_singleton]
    omega
  · rcases List.mem_append.1 hx with hx | hx
    · exact h.plain x hx
    · rw [List.mem_singleton.1 hx]; exact hd
  · rw [view_alloc h.refs] at hv
    exact h.wf i s hv

theorem inv_pushAt {w : World κ} (h : w.Inv) {s : Space κ} {r : ℕ} {p : Bool} (hr : w.dicts[r]? = some s.row2id)
    (hs : s.WF) : (w.pushAt s r p).Inv := by
  have hlt : r < w.dicts.length := by
    by_contra hc
    rw [List.getElem?_eq_none (by omega)] at hr
    cases hr
  refine ⟨fun o ho => ?_, fun x hx => h.plain x hx, fun i s' hv => ?_⟩
  · rcases List.mem_append.1 ho with ho | ho
    · exact h.refs o ho
    · rw [List.mem_singleton.1 ho]; exact hlt
  · by_cases hi : i < w.objs.length
    · rw [view_pushAt_old hi] at hv
      exact h.wf i s' hv
    · by_cases hi' : i = w.objs.length
      · rw [hi', view_pushAt_new hr] at hv
        injection hv with hv
        rw [← hv]; exact hs
      · rw [view_of_lt (by simp only [pushAt, List.length_append, List.length_singleton]; omega)] at hv
        cases hv

theorem inv_pushFresh {w : World κ} (h : w.Inv) {s : Space κ} {p : Bool} (hs : s.WF) (hp : PlainDict s.row2id) :
    (w.pushFresh s p).Inv := by
  unfold pushFresh
  refine inv_pushAt (inv_alloc h hp) ?_ hs
  simp

theorem view_write_self {w : World κ} {i : ℕ} {o : Obj κ} (ho : w.objs[i]? = some o)
    (hr : o.rowRef < w.dicts.length) (s : Space κ) : (w.write i o s).view i = some s := by
  have hi : i < w.objs.length := by
    by_contra hc
    rw [List.getElem?_eq_none (by omega)] at ho
    cases ho
  unfold view write
  simp [deref, hi, hr]

theorem view_write_other {w : World κ} {i j : ℕ} {o : Obj κ} (hij : i ≠ j) (s : Space κ)
    (h : w.rowRef? j ≠ some o.rowRef ∨ w.dicts[o.rowRef]? = some s.row2id) : (w.write i o s).view j = w.view j := by
  unfold view write
  rw [List.getElem?_set_ne hij]
  cases hj : w.objs[j]? with
  | none => rfl
  | some o' =>
    simp only [Option.bind_some, deref]
    congr 1
    by_cases hr : o.rowRef = o'.rowRef
    · rcases h with h | h
      · exfalso
        apply h
        simp [rowRef?, hj, hr]
      · rw [← hr, h, List.getElem?_set_self]
        by_contra hc
        rw [List.getElem?_eq_none (by omega)] at h
        cases h
    · rw [List.getElem?_set_ne hr]

theorem inv_write {w : World κ} (h : w.Inv) {i : ℕ} {o : Obj κ} (ho : w.objs[i]? = some o) {s : Space κ} (hs : s.WF)
    (hp : PlainDict s.row2id)
    (hsh : (∀ j, j ≠ i → w.rowRef? j ≠ some o.rowRef) ∨ w.dicts[o.rowRef]? = some s.row2id) :
    (w.write i o s).Inv := by
  have hr := h.refs o (List.mem_of_getElem? ho)
  refine ⟨fun x hx => ?_, fun x hx => ?_, fun j s' hv => ?_⟩
  · rcases List.mem_or_eq_of_mem_set hx with hx | rfl
    · simp only [write, List.length_set]; exact h.refs x hx
    · simp only [write, List.length_set]; exact hr
  · rcases List.mem_or_eq_of_mem_set hx with hx | rfl
    · exact h.plain x hx
    · exact hp
  · by_cases hij : i = j
    · subst hij
      rw [view_write_self ho hr] at hv
      injection hv with hv
      rw [← hv]; exact hs
    · rw [view_write_other hij s (by
        rcases hsh with hsh | hsh
        · exact Or.inl (hsh j (Ne.symm hij))
        · exact Or.inr hsh)] at hv
      exact h.wf j s' hv

/-- The calls the invariant is about. Unrestricted, whatever the outcome: constructing spaces and peripheral spaces
(also with shared dictionaries), `apply`, `vstack`, `to_dense`, `to_sparse`. Restricted: dictionaries written by the
caller hold non-negative positions; `set_cooccurrence_matrix` is called on a space with rows; `add_rows` succeeds and
is called on a space whose row dictionary object is not held by another space. -/
def Allowed (env : Env) (w : World κ) : Call κ → Prop
  | .newDict d => PlainDict d
  | .setMatrix i _ => ∀ s, w.view i = some s → s.id2row ≠ []
  | .addRows i m ws => (w.step env (.addRows i m ws)).2 = .ok () ∧
      ∀ j, j ≠ i → w.rowRef? j = none ∨ w.rowRef? j ≠ w.rowRef? i
  | _ => True

theorem rowArg_plain {w : World κ} (h : w.Inv) {rows : RowArg} {d : Option (Dict κ ℤ)}
    (hd : w.rowArg rows = some d) : ∀ d', d = some d' → PlainDict d' := by
  rintro d' rfl
  cases rows with
  | none => simp [rowArg] at hd
  | ref r =>
    simp only [rowArg, Option.map_eq_some_iff] at hd
    obtain ⟨x, hx, hd⟩ := hd
    injection hd with hd
    subst hd
    exact h.plain x (List.mem_of_getElem? hx)

theorem inv_pushArg {w : World κ} (h : w.Inv) {rows : RowArg} {d : Option (Dict κ ℤ)} {s : Space κ} {p : Bool}
    {l : List κ} (hd : w.rowArg rows = some d) (hs : s.WF) (hr : Space.resolveMap l d = .ok s.row2id) :
    (w.pushArg s p rows).Inv := by
  have hp := plain_resolveMap hr (rowArg_plain h hd)
  cases rows with
  | none => exact inv_pushFresh h hs hp
  | ref r =>
    refine inv_pushAt h ?_ hs
    simp only [rowArg, Option.map_eq_some_iff] at hd
    obtain ⟨x, hx, rfl⟩ := hd
    rw [hx, (Space.resolveMap_eq_ok hr).2 x rfl]

theorem view_dict {w : World κ} {i : ℕ} {o : Obj κ} {s : Space κ} (ho : w.objs[i]? = some o)
    (hv : w.view i = some s) : w.dicts[o.rowRef]? = some s.row2id := by
  unfold view deref at hv
  rw [ho] at hv
  simp only [Option.bind_some, Option.map_eq_some_iff] at hv
  obtain ⟨d, hd, rfl⟩ := hv
  exact hd

theorem inv_step {env : Env} {w : World κ} (h : w.Inv) {c : Call κ} (ha : w.Allowed env c) : (w.step env c).1.Inv := by
  cases c with
  | newDict d => exact inv_alloc h ha
  | space m r c rows cols sh =>
    simp only [step]
    split
    · exact h
    · rename_i d hd
      split
      · exact h
      · rename_i s hs
        obtain ⟨_, e2, _, _, _, hr, _, hwf⟩ := Space.new_eq_ok hs
        exact inv_pushArg h hd hwf hr
  | periph core m r rows =>
    simp only [step]
    split
    · rename_i cs d hcs hd
      split
      · exact h
      · rename_i s hs
        obtain ⟨_, _, _, _, _, hr, _⟩ := periphNew_eq_ok hs
        exact inv_pushArg h hd (periphNew_wf (h.wf _ _ hcs) hs) hr
    · exact h
  | apply i t =>
    simp only [step]
    split
    · exact h
    · rename_i s hs
      split
      · exact h
      · rename_i s' hs'
        obtain ⟨hwf, _, hrow, _⟩ := C05_apply env s s' t hs'
        exact inv_pushFresh h hwf (by rw [hrow]; exact view_plain h hs)
  | vstack i j =>
    simp only [step]
    split
    · rename_i s1 s2 h1 h2
      split
      · exact h
      · rename_i s hs
        exact inv_pushFresh h (C04_words_keep_vectors s1 s2 s (h.wf _ _ h1) (h.wf _ _ h2) hs).1
          (vstack_plain (h.wf _ _ h1) (view_plain h h1) hs)
    · exact h
  | toDense i =>
    simp only [step]
    split
    · rename_i o s ho hv
      split
      · exact h
      · rename_i s' hs'
        have hwf := h.wf _ _ hv
        have hpl := view_plain h hv
        have hdd := view_dict ho hv
        simp only [Space.toDense, TMat.toDense, ok_bind, pure_eq_ok] at hs'
        obtain rfl := ok_inj hs'
        exact inv_write h ho ⟨hwf.rows, hwf.cols, hwf.nrows, hwf.ncols, hwf.shape⟩ hpl (Or.inr hdd)
    · exact h
  | toSparse i =>
    simp only [step]
    split
    · rename_i o s ho hv
      split
      · exact h
      · rename_i s' hs'
        have hwf := h.wf _ _ hv
        have hpl := view_plain h hv
        have hdd := view_dict ho hv
        simp only [Space.toSparse, bind_eq_ok, pure_eq_ok] at hs'
        obtain ⟨m, hm, hs'⟩ := hs'
        obtain rfl := ok_inj hs'
        have hval : m.val = s.mat.val := (TMat.toType_eq_ok (ty := .sparse) hm).2
        exact inv_write h ho ⟨hwf.rows, hwf.cols, by show m.val.nr = _; rw [hval]; exact hwf.nrows,
          fun hc => by show m.val.nc = _; rw [hval]; exact hwf.ncols hc,
          by show _ = m.val.nc; rw [hval]; exact hwf.shape⟩ hpl (Or.inr hdd)
    · exact h
  | setMatrix i m =>
    simp only [step]
    split
    · rename_i o s ho hv
      split
      · exact h
      · rename_i s' hs'
        have hrow : s'.row2id = s.row2id := by rw [C07_uses_new_matrix_partial s s' m hs']
        exact inv_write h ho (setMatrix_wf (h.wf _ _ hv) (ha s hv) hs') (by rw [hrow]; exact view_plain h hv)
          (Or.inr (by rw [hrow]; exact view_dict ho hv))
    · exact h
  | addRows i m ws =>
    obtain ⟨hok, hex⟩ := ha
    simp only [step] at hok ⊢
    split
    · rename_i o s ho hv
      simp only [ho, hv] at hok
      by_cases hp : o.peripheral
      · simp only [hp, if_true] at hok ⊢
        rcases hadd : Periph.addRows s m ws with ⟨s', out⟩
        rw [hadd] at hok
        simp only at hok ⊢
        subst hok
        obtain ⟨hwf, hpl, _⟩ := addRows_wf (h.wf _ _ hv) (view_plain h hv) hadd
        refine inv_write h ho hwf hpl (Or.inl fun j hj => ?_)
        have hi : w.rowRef? i = some o.rowRef := by simp [rowRef?, ho]
        rcases hex j hj with hn | hn
        · rw [hn]; simp
        · rw [hi] at hn; exact hn
      · simp only [hp]
        exact h
    · exact h

/-- A history all of whose calls are allowed. -/
def AllAllowed (env : Env) (w : World κ) : List (Call κ) → Prop
  | [] => True
  | c :: cs => w.Allowed env c ∧ AllAllowed env (w.step env c).1 cs

theorem inv_run {env : Env} (cs : List (Call κ)) : ∀ {w : World κ}, w.Inv → w.AllAllowed env cs → (w.run env cs).Inv := by
  induction cs with
  | nil => intro w h _; exact h
  | cons c cs ih => intro w h ha; exact ih (inv_step h ha.1) ha.2

theorem inv_empty : (World.empty : World κ).Inv :=
  ⟨by simp [empty], by simp [empty], fun i s hv => by simp [view, empty] at hv⟩

end World

/-- **C02** (part) after every finite history of API calls starting from nothing — over any number of spaces, with any
arguments, any numerical back end, any outcomes of the calls — every space object is well formed, provided `add_rows`
calls succeed and are made on spaces whose row dictionary object is not held by another space. Missing for the full
claim: `add_rows` on shared dictionaries (false: `C29_refuted`) and failed `add_rows` (false: `C28_refuted`). -/
theorem C02_every_history_partial (env : Env) (cs : List (Call κ)) (h : World.AllAllowed env World.empty cs) (i : ℕ)
    (s : Space κ) (hv : (World.run env World.empty cs).view i = some s) : s.WF :=
  (World.inv_run cs World.inv_empty h).wf i s hv

/-! ## C29 -/

/-- **C29** (part) `add_rows` on object `i`, with any arguments and any outcome, leaves every object that does not hold
the same dictionary object exactly as it was. Missing: objects that share the dictionary (false, see below). -/
theorem C29_unshared_partial (env : Env) (w : World κ) (i j : ℕ) (m : TMat ℝ) (ws : List κ) (hij : i ≠ j)
    (hsh : w.rowRef? j ≠ w.rowRef? i) : (w.step env (.addRows i m ws)).1.view j = w.view j := by
  simp only [World.step]
  split
  · rename_i o s ho hv
    split
    · apply World.view_write_other hij
      left
      have : w.rowRef? i = some o.rowRef := by simp [World.rowRef?, ho]
      rw [← this]; exact hsh
    · rfl
  · rfl

/-- **C29** (part) a peripheral space built without a dictionary argument shares its dictionary with no object, so by
`C29_unshared_partial` adding rows to it touches nothing else. -/
theorem C29_default_is_unshared_partial (env : Env) (w w' : World κ) (h : w.Inv) (core : ℕ) (m : TMat ℝ) (ws : List κ)
    (hs : w.step env (.periph core m ws .none) = (w', .ok ())) (j : ℕ) (hj : j ≠ w.objs.length) :
    w'.objs.length = w.objs.length + 1 ∧ w'.rowRef? j ≠ w'.rowRef? w.objs.length := by
  simp only [World.step] at hs
  split at hs
  · rename_i cs d hcs hd
    split at hs
    · simp at hs
    · rename_i s hns
      simp only [Prod.mk.injEq, and_true] at hs
      subst hs
      simp only [World.pushArg, World.pushFresh, World.pushAt, World.rowRef?]
      refine ⟨by simp, ?_⟩
      by_cases hlt : j < w.objs.length
      · rw [List.getElem?_append_left hlt]
        have hm : w.objs[j]? = some w.objs[j] := List.getElem?_eq_getElem hlt
        have := h.refs w.objs[j] (List.getElem_mem hlt)
        rw [hm]
        simp only [Option.map_some, List.getElem?_concat_length, ne_eq, Option.some.injEq]
        omega
      · rw [List.getElem?_eq_none (by simp; omega)]
        simp
  · simp at hs

/-- **C29** is false for shared dictionaries: in *every* consistent world, whenever a peripheral space `i` holds the same
row dictionary object as another space `j` and `add_rows` succeeds on `i`, every added word, which used to raise
`KeyError` in `j`, raises `IndexError` there afterwards, and `j` is no longer well formed. -/
theorem C29_refuted (env : Env) (w w' : World κ) (h : w.Inv) (i j : ℕ) (hij : i ≠ j) (r : ℕ)
    (hi : w.rowRef? i = some r) (hj : w.rowRef? j = some r) (sj : Space κ) (hv : w.view j = some sj)
    (m : TMat ℝ) (ws : List κ) (hs : w.step env (.addRows i m ws) = (w', .ok ())) (x : κ) (hx : x ∈ ws) :
    sj.getRow x = .error .keyError ∧
    ∃ sj', w'.view j = some sj' ∧ sj'.mat = sj.mat ∧ sj'.id2row = sj.id2row ∧
      sj'.getRow x = .error .indexError ∧ ¬ sj'.WF := by
  have hoj : ∃ oj, w.objs[j]? = some oj ∧ oj.rowRef = r := by
    unfold World.rowRef? at hj; rwa [Option.map_eq_some_iff] at hj
  obtain ⟨oj, hoj, hrj⟩ := hoj
  have hdj := World.view_dict hoj hv
  have hwf := h.wf _ _ hv
  simp only [World.step] at hs
  split at hs
  case h_2 => simp at hs
  rename_i o s ho hvi
  have hro : o.rowRef = r := by
    simp only [World.rowRef?, ho, Option.map_some, Option.some.injEq] at hi; exact hi
  have hdi := World.view_dict ho hvi
  have hsame : s.row2id = sj.row2id := by
    rw [hro] at hdi; rw [hrj] at hdj; rw [hdi] at hdj; exact Option.some.inj hdj
  split at hs
  case isFalse => simp at hs
  rcases hadd : Periph.addRows s m ws with ⟨s', out⟩
  rw [hadd] at hs
  simp only [Prod.mk.injEq] at hs
  obtain ⟨rfl, rfl⟩ := hs
  rcases hd : addItemsToDict s.row2id ws with ⟨d, o2⟩
  have hs' : s'.row2id = d ∧ o2 = .ok () := by
    unfold Periph.addRows at hadd
    rw [hd] at hadd
    cases o2 with
    | error e => simp at hadd
    | ok u =>
      refine ⟨?_, rfl⟩
      simp only at hadd
      split at hadd
      · simp at hadd
      · split at hadd
        · simp at hadd
        · split at hadd
          · simp at hadd
          · simp only [Prod.mk.injEq] at hadd
            rw [← hadd.1]
  obtain ⟨hs'd, rfl⟩ := hs'
  obtain ⟨_, h2, h3, h4, _⟩ := addItems_ok hd
  rw [hsame] at h2 h4
  have hnew := h2 x hx
  refine ⟨?_, ?_⟩
  · unfold Space.getRow Dict.getItem
    rw [hnew]; rfl
  obtain ⟨k, hk⟩ := List.mem_iff_getElem?.1 hx
  have hlt : r < w.dicts.length := by
    have := h.refs oj (List.mem_of_getElem? hoj); omega
  have hget := h4 k x hk
  rw [hwf.rows.len, ← hwf.nrows] at hget
  refine ⟨{ sj with row2id := d }, ?_, rfl, rfl, ?_, ?_⟩
  · unfold World.view World.write
    rw [List.getElem?_set_ne hij, hoj]
    simp only [Option.bind_some, World.deref, hro, hrj]
    rw [List.getElem?_set_self hlt, hs'd]
    unfold World.view World.deref at hv
    rw [hoj] at hv
    simp only [Option.bind_some, Option.map_eq_some_iff] at hv
    obtain ⟨d0, _, rfl⟩ := hv
    rfl
  · unfold Space.getRow
    simp only
    rw [Dict.getItem_eq_ok.2 hget, ok_bind]
    unfold TMat.getRow pyIdx
    rw [if_neg (by push_cast; omega), if_neg (by omega)]
  · intro hbad
    have := hbad.rows.index x _ hget
    unfold pyGet pyIdx at this
    have e := hwf.nrows
    rw [if_neg (by simp only; push_cast; omega), if_neg (by omega)] at this
    cases this

/-! ### A concrete history -/

/-- A 1×1 matrix. -/
noncomputable def exTiny (a : ℝ) : TMat ℝ := ⟨.dense, Mat.of 1 1 (fun _ _ => a)⟩

/-- `s = Space(m, ["a"], [])`, `s2 = Space(m, ["b"], [])`, `t = Space.vstack(s, s2)`, `p = PeripheralSpace(s, m, ["a"])`,
`p.add_rows(m, ["c"])`, with labels written as numbers. -/
noncomputable def exHistory : List (Call ℕ) :=
  [.space (exTiny 1) [7] [] .none none none, .space (exTiny 2) [8] [] .none none none, .vstack 0 1,
   .periph 0 (exTiny 3) [7] .none, .addRows 3 (exTiny 4) [9]]

/-- Non-vacuity of C02: the history above is allowed, and its last object has two rows. -/
theorem exHistory_full (env : Env) : World.AllAllowed env (World.empty : World ℕ) exHistory ∧
    ∃ s, (World.run env World.empty exHistory).view 3 = some s ∧ s.id2row = [7, 9] := by
  refine ⟨⟨trivial, trivial, trivial, trivial, ⟨rfl, ?_⟩, trivial⟩, ?_⟩
  · intro j hj
    have : j = 0 ∨ j = 1 ∨ j = 2 ∨ 4 ≤ j := by omega
    rcases this with rfl | rfl | rfl | h4
    · right; show (some 0 : Option ℕ) ≠ some 3; decide
    · right; show (some 1 : Option ℕ) ≠ some 3; decide
    · right; show (some 2 : Option ℕ) ≠ some 3; decide
    · left
      unfold World.rowRef?
      rw [List.getElem?_eq_none]
      · rfl
      · exact h4
  · exact ⟨_, rfl, rfl⟩

/-- The same with a shared dictionary object: `s = Space(m, ["a"], [])`,
`p = PeripheralSpace(s, m, s.id2row, s.row2id)`, `p.add_rows(m, ["c"])`. -/
noncomputable def exShared : List (Call ℕ) :=
  [.space (exTiny 1) [7] [] .none none none, .periph 0 (exTiny 3) [7] (.ref 0)]

/-- Non-vacuity of `C29_refuted`: its hypotheses hold in a reachable world. -/
example (env : Env) : ∃ (w' : World ℕ) (sj : Space ℕ),
    (World.run env World.empty exShared).Inv ∧
    (World.run env (World.empty : World ℕ) exShared).rowRef? 1 = some 0 ∧
    (World.run env (World.empty : World ℕ) exShared).rowRef? 0 = some 0 ∧
    (World.run env (World.empty : World ℕ) exShared).view 0 = some sj ∧
    (World.run env World.empty exShared).step env (.addRows 1 (exTiny 4) [9]) = (w', .ok ()) :=
  ⟨_, _, World.inv_run _ World.inv_empty ⟨trivial, trivial, trivial⟩, rfl, rfl, rfl, rfl⟩

/-- **C02** is false without the sharing restriction: three successful calls that use no odd argument lead to a space
that is not well formed (`Space(...)`, `PeripheralSpace(s, m, s.id2row, s.row2id)`, `add_rows`). -/
theorem C02_refuted (env : Env) : ∃ (cs : List (Call ℕ)) (s : Space ℕ),
    (∀ k c, cs[k]? = some c → ((World.run env World.empty (cs.take k)).step env c).2 = .ok ()) ∧
    (World.run env World.empty cs).view 0 = some s ∧ ¬ s.WF := by
  have hr := C29_refuted env (World.run env World.empty exShared)
    (World.run env World.empty (exShared ++ [.addRows 1 (exTiny 4) [9]]))
    (World.inv_run _ World.inv_empty ⟨trivial, trivial, trivial⟩) 1 0 (by omega) 0 rfl rfl _ rfl (exTiny 4) [9] rfl 9
    (by simp)
  obtain ⟨_, s, hs, _, _, _, hn⟩ := hr
  refine ⟨exShared ++ [.addRows 1 (exTiny 4) [9]], s, ?_, hs, hn⟩
  intro k c hk
  match k, hk with
  | 0, hk => injection hk with hk; subst hk; rfl
  | 1, hk => injection hk with hk; subst hk; rfl
  | 2, hk => injection hk with hk; subst hk; rfl
  | k + 3, hk => simp [exShared] at hk

/-! ## C73 -/

/-- **C73** (part) a dictionary with non-negative positions accepted by the constructor keeps addressing the right rows
through any number of successful `add_rows` calls: every word of the enlarged space yields the row that stands at its
place in the label list. -/
theorem C73_plain_partial (p : Space κ) (hwf : p.WF) (hpl : PlainDict p.row2id) (bs : List (TMat ℝ × List κ)) :
    ∀ p' : Space κ, Periph.addBatches p bs = .ok p' →
      p'.id2row = p.id2row ++ (bs.map Prod.snd).flatten ∧
      (∀ (i : ℕ) (w : κ), p'.id2row[i]? = some w → p'.getRow w = p'.mat.getRow i) ∧
      (∀ w ∈ p.id2row, p'.getRow w = p.getRow w) := by
  induction bs generalizing p with
  | nil =>
    intro p' h
    have := ok_inj h
    subst this
    refine ⟨by simp, fun i w hw => ?_, fun _ _ => rfl⟩
    obtain ⟨v, hv, hidx⟩ := hwf.rows.lookup hw
    unfold Space.getRow
    rw [Dict.getItem_eq_ok.2 hv, ok_bind]
    unfold TMat.getRow
    have hi : i < p.mat.nr := by rw [hwf.nrows]; exact pyIdx_lt hidx
    rw [pyIdx_nat hi, hwf.nrows, hidx]
  | cons b bs ih =>
    intro p' h
    obtain ⟨m, ws⟩ := b
    simp only [Periph.addBatches] at h
    rcases hadd : Periph.addRows p m ws with ⟨p1, out⟩
    rw [hadd] at h
    cases out with
    | error e => cases h
    | ok u =>
      simp only at h
      obtain ⟨hwf1, hpl1, hid⟩ := addRows_wf hwf hpl hadd
      obtain ⟨h1, h2, h3⟩ := ih p1 hwf1 hpl1 p' h
      refine ⟨by rw [h1, hid]; simp, h2, fun w hw => ?_⟩
      rw [h3 w (by rw [hid]; exact List.mem_append_left _ hw)]
      have := C28_old_words_partial p hwf (fun w v h => hpl w v h) m ws w hw
      rw [hadd] at this
      exact this

/-- Non-vacuity of `C73_plain_partial`: a one-row space that grows twice. -/
example : ∃ p p' : Space ℕ, p.WF ∧ PlainDict p.row2id ∧
    Periph.addBatches p [(exTiny 2, [8]), (exTiny 3, [9])] = .ok p' ∧ p'.id2row = [7, 8, 9] := by
  obtain ⟨d, hd⟩ := list2dict_of_nodup (l := [7]) (by simp)
  obtain rfl := ok_inj ((rfl : list2dict [7] = .ok (Dict.empty.set 7 0)).symm.trans hd)
  refine ⟨⟨exTiny 1, [7], [], Dict.empty.set 7 0, Dict.empty, [], [1]⟩, _,
    ⟨(list2dict_ok hd).1, Labels.empty, rfl, fun h => absurd rfl h, rfl⟩, plain_list2dict hd, rfl, rfl⟩

/-- **C73** is false for negative positions: `{"a": -1}` is accepted for the one-row label list `["a"]`, but after a
successful `add_rows` the word addresses the row that was added last, not its own. -/
theorem C73_refuted (core : Space ℕ) (hops : core.ops = []) (hc : core.id2col = []) (hcd : core.col2id = Dict.empty)
    (a b : ℝ) :
    ∃ p p' : Space ℕ, Periph.new core (exTiny a) [7] (some ⟨[(7, -1)], by simp⟩) = .ok p ∧
      p.getRow 7 = .ok (exTiny a) ∧
      Periph.addRows p (exTiny b) [9] = (p', .ok ()) ∧ p'.getRow 7 = .ok (exTiny b) := by
  obtain ⟨cm, cr, cc, crd, ccd, cops, csh⟩ := core
  simp only at hops hc hcd
  subst hops hc hcd
  refine ⟨_, _, rfl, ?_, rfl, ?_⟩
  · refine congrArg Except.ok (TMat.ext' rfl (Mat.ext' rfl rfl fun i j hi hj => ?_))
    have hi0 : i = 0 := by have : i < 1 := hi; omega
    have hj0 : j = 0 := by have : j < 1 := hj; omega
    subst hi0 hj0
    rfl
  · refine congrArg Except.ok (TMat.ext' rfl (Mat.ext' rfl rfl fun i j hi hj => ?_))
    have hi0 : i = 0 := by have : i < 1 := hi; omega
    have hj0 : j = 0 := by have : j < 1 := hj; omega
    subst hi0 hj0
    rfl

end Dissect
