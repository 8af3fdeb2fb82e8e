import Verif.Model.Heap
import Verif.Lemmas.Py

/-! # Reasoning about programs on the matrix heap -/

namespace Dissect
noncomputable section

theorem Mat.reshape_self {K : Type} [Zero K] (A : Mat K) : A.reshape A.nr A.nc = A := by
  refine Mat.ext' rfl rfl (fun i j hi hj => ?_)
  simp only [Mat.reshape_nr, Mat.reshape_nc] at hi hj
  unfold Mat.reshape
  rw [Mat.of_get_lt hi hj]
  have h1 : (i * A.nc + j) / A.nc = i := by
    rw [Nat.mul_comm, Nat.mul_add_div (by omega), Nat.div_eq_of_lt hj]; omega
  have h2 : (i * A.nc + j) % A.nc = j := by
    rw [Nat.mul_comm, Nat.mul_add_mod, Nat.mod_eq_of_lt hj]
  rw [h1, h2]

/-- Position of an element of one shape in another shape of the same size. -/
theorem reshape_pos {a b nr nc i j : ℕ} (hs : a * b = nr * nc) (hi : i < nr) (hj : j < nc) :
    (i * nc + j) / b < a ∧ (i * nc + j) % b < b := by
  have hlt : i * nc + j < a * b := by
    rw [hs]
    calc i * nc + j < i * nc + nc := by omega
      _ = (i + 1) * nc := by ring
      _ ≤ nr * nc := Nat.mul_le_mul_right _ (by omega)
  have hb : 0 < b := by
    rcases Nat.eq_zero_or_pos b with h0 | h0
    · subst h0; simp at hlt
    · exact h0
  exact ⟨(Nat.div_lt_iff_lt_mul hb).2 hlt, Nat.mod_lt _ hb⟩

theorem Mat.reshape_map {A : Mat ℝ} {nr nc : ℕ} (hs : A.nr * A.nc = nr * nc) (f : ℝ → ℝ) :
    (A.map f).reshape nr nc = (A.reshape nr nc).map f := by
  refine Mat.ext' rfl rfl (fun i j hi hj => ?_)
  simp only [Mat.reshape_nr, Mat.reshape_nc] at hi hj
  obtain ⟨h1, h2⟩ := reshape_pos hs hi hj
  rw [Mat.map_get_lt f _ (by simpa using hi) (by simpa using hj)]
  unfold Mat.reshape
  rw [Mat.of_get_lt hi hj, Mat.of_get_lt hi hj]
  simp only [Mat.map_nc]
  exact Mat.map_get_lt f A h1 h2

theorem Mat.reshape_reshape {A : Mat ℝ} {r c nr nc : ℕ} (hs : A.nr * A.nc = r * c) (ht : r * c = nr * nc) :
    (A.reshape r c).reshape nr nc = A.reshape nr nc := by
  refine Mat.ext' rfl rfl (fun i j hi hj => ?_)
  simp only [Mat.reshape_nr, Mat.reshape_nc] at hi hj
  obtain ⟨h1, h2⟩ := reshape_pos ht hi hj
  unfold Mat.reshape
  rw [Mat.of_get_lt hi hj, Mat.of_get_lt hi hj]
  simp only [Mat.of_nc]
  rw [Mat.of_get_lt h1 h2]
  have : (i * nc + j) / c * c + (i * nc + j) % c = i * nc + j := Nat.div_add_mod' _ _
  rw [this]

namespace Heap

/-- `h` extends `h0`: everything that was there is still there, unchanged. -/
structure Ext (h0 h : Heap) : Prop where
  bufs : h0.bufs <+: h.bufs
  objs : h0.objs <+: h.objs

/-- Every object has its buffer, of the right size. -/
def WF (h : Heap) : Prop :=
  ∀ o ∈ h.objs, ∃ b, h.bufs[o.buf]? = some b ∧ b.nr * b.nc = o.nr * o.nc

/-- Object `k` was created after `h0`, has its own new buffer, and is the matrix `t` now. -/
structure New (h0 h : Heap) (k : ℕ) (t : TMat ℝ) : Prop where
  mat : h.matrix k = some t
  obj : ∃ o, h.objs[k]? = some o ∧ h0.bufs.length ≤ o.buf
  idx : h0.objs.length ≤ k

theorem Ext.refl (h : Heap) : Ext h h := ⟨List.prefix_refl _, List.prefix_refl _⟩

theorem Ext.trans {a b c : Heap} (h1 : Ext a b) (h2 : Ext b c) : Ext a c :=
  ⟨h1.bufs.trans h2.bufs, h1.objs.trans h2.objs⟩

theorem prefix_getElem? {α : Type} {l l' : List α} (h : l <+: l') {i : ℕ} {x : α} (hx : l[i]? = some x) :
    l'[i]? = some x := by
  obtain ⟨t, rfl⟩ := h
  have hi : i < l.length := by
    by_contra hc
    rw [List.getElem?_eq_none (by omega)] at hx
    exact absurd hx (by simp)
  rw [List.getElem?_append_left hi, hx]

theorem prefix_modify {α : Type} {l l' : List α} (h : l <+: l') {i : ℕ} (hi : l.length ≤ i) (f : α → α) :
    l <+: l'.modify i f := by
  obtain ⟨t, rfl⟩ := h
  refine ⟨t.modify (i - l.length) f, ?_⟩
  refine List.ext_getElem? (fun k => ?_)
  by_cases hk : k < l.length
  · rw [List.getElem?_append_left hk, List.getElem?_modify, List.getElem?_append_left hk]
    have hik : ¬ i = k := by omega
    simp [hik]
  · rw [List.getElem?_append_right (by omega), List.getElem?_modify, List.getElem?_modify,
      List.getElem?_append_right (by omega)]
    by_cases h' : i = k
    · subst h'; simp
    · have h2 : ¬ (i - l.length = k - l.length) := by omega
      simp [h', h2]

theorem view_some {h : Heap} {i : ℕ} {t : TMat ℝ} (hv : h.view i = some t) :
    ∃ o b, h.objs[i]? = some o ∧ h.bufs[o.buf]? = some b ∧ t = ⟨o.ty, b.reshape o.nr o.nc⟩ := by
  unfold view value at hv
  cases ho : h.objs[i]? with
  | none => rw [ho] at hv; simp at hv
  | some o =>
    rw [ho] at hv
    simp only [Option.bind_some, Option.map_eq_some_iff] at hv
    obtain ⟨b, hb, rfl⟩ := hv
    exact ⟨o, b, rfl, hb, rfl⟩

theorem view_of {h : Heap} {i : ℕ} {o : HObj} {b : Mat ℝ} (ho : h.objs[i]? = some o) (hb : h.bufs[o.buf]? = some b) :
    h.view i = some ⟨o.ty, b.reshape o.nr o.nc⟩ := by
  unfold view value
  rw [ho]
  simp [hb]

theorem Ext.view {h0 h : Heap} (he : Ext h0 h) {i : ℕ} {t : TMat ℝ} (hv : h0.view i = some t) : h.view i = some t := by
  obtain ⟨o, b, ho, hb, rfl⟩ := view_some hv
  exact view_of (prefix_getElem? he.objs ho) (prefix_getElem? he.bufs hb)

theorem matrix_some {h : Heap} {i : ℕ} {t : TMat ℝ} (hv : h.matrix i = some t) :
    ∃ o b, h.objs[i]? = some o ∧ o.raw = false ∧ h.bufs[o.buf]? = some b ∧ t = ⟨o.ty, b.reshape o.nr o.nc⟩ := by
  unfold matrix value at hv
  cases ho : h.objs[i]? with
  | none => rw [ho] at hv; simp at hv
  | some o =>
    rw [ho] at hv
    cases hr : o.raw with
    | true => simp [hr] at hv
    | false =>
      simp only [Option.bind_some, hr, Bool.false_eq_true, if_false, Option.map_eq_some_iff] at hv
      obtain ⟨b, hb, rfl⟩ := hv
      exact ⟨o, b, rfl, hr, hb, rfl⟩

theorem matrix_of {h : Heap} {i : ℕ} {o : HObj} {b : Mat ℝ} (ho : h.objs[i]? = some o) (hr : o.raw = false)
    (hb : h.bufs[o.buf]? = some b) : h.matrix i = some ⟨o.ty, b.reshape o.nr o.nc⟩ := by
  unfold matrix value
  rw [ho]
  simp [hb, hr]

theorem matrix_view {h : Heap} {i : ℕ} {t : TMat ℝ} (hv : h.matrix i = some t) : h.view i = some t := by
  obtain ⟨o, b, ho, _, hb, rfl⟩ := matrix_some hv
  exact view_of ho hb

theorem Ext.matrix {h0 h : Heap} (he : Ext h0 h) {i : ℕ} {t : TMat ℝ} (hv : h0.matrix i = some t) :
    h.matrix i = some t := by
  obtain ⟨o, b, ho, hr, hb, rfl⟩ := matrix_some hv
  exact matrix_of (prefix_getElem? he.objs ho) hr (prefix_getElem? he.bufs hb)

theorem Ext.objs_lt {h0 h : Heap} (he : Ext h0 h) : h0.objs.length ≤ h.objs.length := he.objs.length_le
theorem Ext.bufs_lt {h0 h : Heap} (he : Ext h0 h) : h0.bufs.length ≤ h.bufs.length := he.bufs.length_le

/-- Existing objects exist and have a view. -/
theorem WF.view {h : Heap} (hw : h.WF) {i : ℕ} (hi : i < h.objs.length) : ∃ t, h.view i = some t := by
  have ho : h.objs[i]? = some h.objs[i] := List.getElem?_eq_getElem hi
  obtain ⟨b, hb, _⟩ := hw _ (List.getElem_mem hi)
  exact ⟨_, view_of ho hb⟩

/-- Views of existing objects are kept by an extension. -/
theorem Ext.same {h0 h : Heap} (hw : h0.WF) (he : Ext h0 h) {i : ℕ} (hi : i < h0.objs.length) :
    h.view i = h0.view i := by
  obtain ⟨t, ht⟩ := hw.view hi
  rw [ht, he.view ht]

theorem New.mono {h0 h h' : Heap} {k : ℕ} {t : TMat ℝ} (hn : New h0 h k t) (he : Ext h h') : New h0 h' k t := by
  obtain ⟨o, ho, hb⟩ := hn.obj
  exact ⟨he.matrix hn.mat, ⟨o, prefix_getElem? he.objs ho, hb⟩, hn.idx⟩

theorem New.base {h0 h1 h : Heap} {k : ℕ} {t : TMat ℝ} (he : Ext h0 h1) (hn : New h1 h k t) : New h0 h k t := by
  obtain ⟨o, ho, hb⟩ := hn.obj
  exact ⟨hn.mat, ⟨o, ho, he.bufs_lt.trans hb⟩, he.objs_lt.trans hn.idx⟩

/-! ### Primitive changes -/

theorem push_ext (h : Heap) (raw : Bool) (t : TMat ℝ) : Ext h (h.push raw t) :=
  ⟨List.prefix_append _ _, List.prefix_append _ _⟩

theorem push_wf {h : Heap} (hw : h.WF) (raw : Bool) (t : TMat ℝ) : (h.push raw t).WF := by
  intro o ho
  rcases List.mem_append.1 ho with ho | ho
  · obtain ⟨b, hb, hs⟩ := hw o ho
    exact ⟨b, prefix_getElem? (List.prefix_append _ _) hb, hs⟩
  · rw [List.mem_singleton] at ho
    subst ho
    exact ⟨t.val, by simp [push], rfl⟩

theorem push_new (h : Heap) (t : TMat ℝ) : New h (h.push false t) h.objs.length t := by
  refine ⟨?_, ⟨⟨false, t.ty, h.bufs.length, t.val.nr, t.val.nc⟩, by simp [push], le_refl _⟩, le_refl _⟩
  rw [matrix_of (o := ⟨false, t.ty, h.bufs.length, t.val.nr, t.val.nc⟩) (b := t.val) (by simp [push]) rfl
    (by simp [push])]
  rw [Mat.reshape_self]

theorem pushShared_ext (h : Heap) (o : HObj) : Ext h (h.pushShared o) :=
  ⟨List.prefix_refl _, List.prefix_append _ _⟩

theorem pushShared_wf {h : Heap} (hw : h.WF) {o : HObj} (ho : o ∈ h.objs) : (h.pushShared o).WF := by
  intro o' ho'
  rcases List.mem_append.1 ho' with ho' | ho'
  · exact hw o' ho'
  · rw [List.mem_singleton] at ho'
    subst ho'
    exact hw o ho

theorem pushShared_view {h : Heap} {i : ℕ} {o : HObj} (ho : h.objs[i]? = some o) :
    (h.pushShared o).view h.objs.length = h.view i := by
  unfold view
  rw [ho]
  simp [pushShared, value]

theorem modify_mem {α : Type} {l : List α} {i : ℕ} {f : α → α} {x : α} (h : x ∈ l.modify i f) :
    x ∈ l ∨ ∃ y, l[i]? = some y ∧ x = f y := by
  obtain ⟨k, hk⟩ := List.mem_iff_getElem?.1 h
  rw [List.getElem?_modify] at hk
  by_cases hik : i = k
  · subst hik
    cases hy : l[i]? with
    | none => rw [hy] at hk; simp at hk
    | some y =>
      rw [hy] at hk
      simp only [if_true, Option.map_eq_map, Option.map_some, Option.some.injEq] at hk
      exact Or.inr ⟨y, rfl, hk.symm⟩
  · refine Or.inl (List.mem_iff_getElem?.2 ⟨k, ?_⟩)
    simpa [hik] using hk

theorem writeBuf_wf {h : Heap} (hw : h.WF) (o : HObj) (f : ℝ → ℝ) : (h.writeBuf o f).WF := by
  intro o' ho'
  obtain ⟨b, hb, hs⟩ := hw o' ho'
  by_cases hbb : o.buf = o'.buf
  · exact ⟨b.map f, by simp [writeBuf, List.getElem?_modify, hbb, hb], by simpa using hs⟩
  · exact ⟨b, by simp [writeBuf, List.getElem?_modify, hbb, hb], hs⟩

/-- An object that reads another buffer does not see the write. -/
theorem writeBuf_other {h : Heap} {o o' : HObj} {f : ℝ → ℝ} (hb : o.buf ≠ o'.buf) :
    (h.writeBuf o f).value o' = h.value o' := by
  unfold value writeBuf
  simp [List.getElem?_modify, hb]

/-- An object that reads this buffer sees the write. -/
theorem writeBuf_same {h : Heap} (hw : h.WF) {o o' : HObj} {f : ℝ → ℝ} (hb : o.buf = o'.buf) (hm : o' ∈ h.objs)
    {t : TMat ℝ} (hv : h.value o' = some t) : (h.writeBuf o f).value o' = some ⟨t.ty, t.val.map f⟩ := by
  obtain ⟨b, hb', hs⟩ := hw o' hm
  unfold value at hv ⊢
  rw [hb'] at hv
  simp only [Option.map_some, Option.some.injEq] at hv
  subst hv
  unfold writeBuf
  simp only [List.getElem?_modify, hb, hb', if_true, Option.map_some, Option.map_eq_map]
  rw [Mat.reshape_map hs]

theorem rebind_wf {h : Heap} (hw : h.WF) (i : ℕ) (t : TMat ℝ) : (h.rebind i t).WF := by
  intro o ho
  rcases modify_mem ho with ho | ⟨y, _, rfl⟩
  · obtain ⟨b, hb, hs⟩ := hw o ho
    exact ⟨b, prefix_getElem? (List.prefix_append _ _) hb, hs⟩
  · exact ⟨t.val, by simp [rebind], rfl⟩

theorem rebind_obj {h : Heap} {i : ℕ} {o : HObj} (ho : h.objs[i]? = some o) (t : TMat ℝ) :
    (h.rebind i t).objs[i]? = some { o with buf := h.bufs.length, nr := t.val.nr, nc := t.val.nc } := by
  simp [rebind, ho]

theorem rebind_other {h : Heap} {i j : ℕ} (hij : i ≠ j) (t : TMat ℝ) : (h.rebind i t).objs[j]? = h.objs[j]? := by
  simp [rebind, List.getElem?_modify, hij]

theorem rebind_view {h : Heap} {i : ℕ} {o : HObj} (ho : h.objs[i]? = some o) (t : TMat ℝ) (hty : t.ty = o.ty) :
    (h.rebind i t).view i = some t := by
  rw [view_of (rebind_obj ho t) (b := t.val) (by simp [rebind])]
  simp only [Mat.reshape_self, Option.some.injEq]
  exact TMat.ext' hty.symm rfl

theorem rebind_matrix {h : Heap} {i : ℕ} {o : HObj} (ho : h.objs[i]? = some o) (hr : o.raw = false) (t : TMat ℝ)
    (hty : t.ty = o.ty) : (h.rebind i t).matrix i = some t := by
  rw [matrix_of (rebind_obj ho t) hr (b := t.val) (by simp [rebind])]
  simp only [Mat.reshape_self, Option.some.injEq]
  exact TMat.ext' hty.symm rfl

theorem rebind_view_other {h : Heap} (hw : h.WF) {i j : ℕ} (hij : i ≠ j) (t : TMat ℝ) :
    (h.rebind i t).view j = h.view j := by
  unfold view
  rw [rebind_other hij]
  cases ho : h.objs[j]? with
  | none => rfl
  | some o =>
    obtain ⟨b, hb, _⟩ := hw o (List.mem_of_getElem? ho)
    simp only [Option.bind_some, value]
    rw [hb, prefix_getElem? (l := h.bufs) (l' := (h.rebind i t).bufs) (List.prefix_append _ _) hb]

theorem reshapeView_wf {h : Heap} (hw : h.WF) {i : ℕ} {o : HObj} (ho : h.objs[i]? = some o) {nr nc : ℕ}
    (hs : o.nr * o.nc = nr * nc) : (h.reshapeView i nr nc).WF := by
  intro o' ho'
  rcases modify_mem ho' with ho' | ⟨y, hy, rfl⟩
  · exact hw o' ho'
  · rw [ho] at hy
    obtain rfl := Option.some.inj hy
    obtain ⟨b, hb, hs'⟩ := hw o (List.mem_of_getElem? ho)
    exact ⟨b, hb, hs'.trans hs⟩

end Heap

open Heap

/-! ### Programs -/

namespace HM

/-- Program `p`, started in `h`, computes what `v` computes; everything in `h0` is kept; the results are related by
`R`. -/
def Does {α β : Type} (h0 h : Heap) (p : HM α) (v : Py β) (R : Heap → α → β → Prop) : Prop :=
  match v with
  | .ok b => ∃ h' a, p h = (h', .ok a) ∧ h'.WF ∧ Ext h0 h' ∧ R h' a b
  | .error e => ∃ h', p h = (h', .error e) ∧ h'.WF ∧ Ext h0 h'

theorem Does.bind {α β γ δ : Type} {h0 h : Heap} {p : HM α} {v : Py β} {R : Heap → α → β → Prop}
    {f : α → HM γ} {g : β → Py δ} {S : Heap → γ → δ → Prop} (hp : Does h0 h p v R)
    (hf : ∀ h' a b, v = .ok b → h'.WF → Ext h0 h' → R h' a b → Does h0 h' (f a) (g b) S) :
    Does h0 h (p >>= f) (v >>= g) S := by
  cases v with
  | error e =>
    obtain ⟨h', hp, hw, he⟩ := hp
    exact ⟨h', by show HM.andThen p f h = _; unfold andThen; rw [hp], hw, he⟩
  | ok b =>
    obtain ⟨h', a, hp, hw, he, hR⟩ := hp
    have := hf h' a b rfl hw he hR
    have hrun : (p >>= f) h = f a h' := by show HM.andThen p f h = _; unfold andThen; rw [hp]
    unfold Does at this ⊢
    simp only [ok_bind]
    rw [hrun]
    exact this

theorem Does.pure {α β : Type} {h0 h : Heap} (hw : h.WF) (he : Ext h0 h) {a : α} {b : β} {R : Heap → α → β → Prop}
    (hR : R h a b) : Does h0 h (pure a : HM α) (.ok b) R := ⟨h, a, rfl, hw, he, hR⟩

theorem Does.lift {α : Type} {h0 h : Heap} (hw : h.WF) (he : Ext h0 h) (v : Py α) :
    Does h0 h (lift v) v (fun h' a b => h' = h ∧ a = b) := by
  cases v with
  | ok a => exact ⟨h, a, rfl, hw, he, rfl, rfl⟩
  | error e => exact ⟨h, rfl, hw, he⟩

theorem Does.weaken {α β : Type} {h0 h : Heap} {p : HM α} {v : Py β} {R S : Heap → α → β → Prop}
    (hp : Does h0 h p v R) (hRS : ∀ h' a b, v = .ok b → h'.WF → Ext h0 h' → R h' a b → S h' a b) :
    Does h0 h p v S := by
  cases v with
  | error e => exact hp
  | ok b =>
    obtain ⟨h', a, h1, hw, he, hR⟩ := hp
    exact ⟨h', a, h1, hw, he, hRS _ _ _ rfl hw he hR⟩

/-- The base heap may be forgotten down to an earlier one. -/
theorem Does.base {α β : Type} {h0 h1 h : Heap} {p : HM α} {v : Py β} {R : Heap → α → β → Prop}
    (hp : Does h1 h p v R) (he : Ext h0 h1) : Does h0 h p v R := by
  cases v with
  | error e =>
    obtain ⟨h', a, hw, he'⟩ := hp
    exact ⟨h', a, hw, he.trans he'⟩
  | ok b =>
    obtain ⟨h', a, h1, hw, he', hR⟩ := hp
    exact ⟨h', a, h1, hw, he.trans he', hR⟩

theorem read_bind {α : Type} {h : Heap} {i : ℕ} {t : TMat ℝ} (hv : h.matrix i = some t) (f : TMat ℝ → HM α) :
    (read i >>= f) h = f t h := by
  show HM.andThen (read i) f h = _
  unfold andThen read
  rw [hv]

theorem Does.read {α β : Type} {h0 h : Heap} {i : ℕ} {t : TMat ℝ} (hv : h.matrix i = some t) {f : TMat ℝ → HM α}
    {v : Py β} {R : Heap → α → β → Prop} (hf : Does h0 h (f t) v R) : Does h0 h (read i >>= f) v R := by
  unfold Does at hf ⊢
  rw [read_bind hv]
  exact hf

theorem Does.alloc {h0 h : Heap} (hw : h.WF) (he : Ext h0 h) (v : Py (TMat ℝ)) :
    Does h0 h (alloc v) v (fun h' k r => Ext h h' ∧ New h h' k r) := by
  cases v with
  | error e => exact ⟨h, rfl, hw, he⟩
  | ok t => exact ⟨_, _, rfl, push_wf hw _ _, he.trans (push_ext h _ _), push_ext h _ _, push_new h _⟩

theorem Does.call1 {h0 h : Heap} (hw : h.WF) (he : Ext h0 h) {i : ℕ} {t : TMat ℝ} (hv : h.matrix i = some t)
    (f : Meth1) : Does h0 h (call1 f i) (f.eval t) (fun h' k r => Ext h h' ∧ New h h' k r) :=
  Does.read hv (Does.alloc hw he _)

theorem Does.call2 {h0 h : Heap} (hw : h.WF) (he : Ext h0 h) {i j : ℕ} {s t : TMat ℝ} (hi : h.matrix i = some s)
    (hj : h.matrix j = some t) (f : Meth2) :
    Does h0 h (call2 f i j) (f.eval s t) (fun h' k r => Ext h h' ∧ New h h' k r) :=
  Does.read hi (Does.read hj (Does.alloc hw he _))

theorem Does.padd {h0 h : Heap} (hw : h.WF) (he : Ext h0 h) {i : ℕ} {t : TMat ℝ} (hv : h.matrix i = some t)
    (ax : ℤ) (x : ℝ) : Does h0 h (padd i ax x) (t.padd ax x) (fun h' k r => Ext h h' ∧ New h h' k r) :=
  Does.read hv (Does.alloc hw he _)

/-! ### In-place methods -/

theorem ext_writeBuf {h0 h : Heap} (he : Ext h0 h) {o : HObj} (hb : h0.bufs.length ≤ o.buf) (f : ℝ → ℝ) :
    Ext h0 (h.writeBuf o f) := ⟨prefix_modify he.bufs hb _, he.objs⟩

theorem ext_rebind {h0 h : Heap} (he : Ext h0 h) {i : ℕ} (hi : h0.objs.length ≤ i) (t : TMat ℝ) :
    Ext h0 (h.rebind i t) := ⟨he.bufs.trans (List.prefix_append _ _), prefix_modify he.objs hi _⟩

theorem new_rebind {h0 h : Heap} (he : Ext h0 h) {i : ℕ} {o : HObj} (ho : h.objs[i]? = some o)
    (hr : o.raw = false) (hi : h0.objs.length ≤ i) (t : TMat ℝ) (hty : t.ty = o.ty) : New h0 (h.rebind i t) i t :=
  ⟨rebind_matrix ho hr t hty, ⟨_, rebind_obj ho t, he.bufs_lt⟩, hi⟩

theorem new_writeBuf {h0 h : Heap} (hw : h.WF) {i : ℕ} {o : HObj} (ho : h.objs[i]? = some o)
    (hi : h0.objs.length ≤ i) (hb : h0.bufs.length ≤ o.buf) {t : TMat ℝ} (hv : h.matrix i = some t) (f : ℝ → ℝ) :
    New h0 (h.writeBuf o f) i ⟨t.ty, t.val.map f⟩ := by
  refine ⟨?_, ⟨o, ho, hb⟩, hi⟩
  unfold matrix at hv ⊢
  rw [ho] at hv
  have : (h.writeBuf o f).objs[i]? = some o := ho
  rw [this]
  cases hr : o.raw with
  | true => simp [hr] at hv
  | false =>
    simp only [Option.bind_some, hr, Bool.false_eq_true, if_false] at hv ⊢
    exact writeBuf_same hw rfl (List.mem_of_getElem? ho) hv

theorem view_ty {h : Heap} {i : ℕ} {o : HObj} (ho : h.objs[i]? = some o) {t : TMat ℝ} (hv : h.matrix i = some t) :
    t.ty = o.ty := by
  obtain ⟨o', b, ho', _, _, rfl⟩ := matrix_some hv
  rw [ho] at ho'
  obtain rfl := Option.some.inj ho'
  rfl

theorem view_shape {h : Heap} {i : ℕ} {o : HObj} (ho : h.objs[i]? = some o) {t : TMat ℝ} (hv : h.matrix i = some t) :
    t.nr = o.nr ∧ t.nc = o.nc := by
  obtain ⟨o', b, ho', _, _, rfl⟩ := matrix_some hv
  rw [ho] at ho'
  obtain rfl := Option.some.inj ho'
  exact ⟨rfl, rfl⟩

/-- An in-place method on an object created after `h0` leaves `h0` alone and gives the object its documented
value. -/
theorem Does.inPlace {h0 h : Heap} (hw : h.WF) (he : Ext h0 h) {k : ℕ} {t : TMat ℝ} (hn : New h0 h k t)
    (f : InPlace) : Does h0 h (f.run k) (f.eval t) (fun h' _ r => New h0 h' k r) := by
  obtain ⟨o, ho, hb⟩ := hn.obj
  have hv := hn.mat
  have hr : o.raw = false := by
    obtain ⟨o', b, ho', hr, _, _⟩ := matrix_some hv
    rw [ho] at ho'
    obtain rfl := Option.some.inj ho'
    exact hr
  have hty := view_ty ho hv
  have hsh := view_shape ho hv
  cases f with
  | plog =>
    show Does h0 h (plogIn k) (.ok t.plog) _
    cases hd : o.ty with
    | sparse =>
      refine ⟨h.writeBuf o (fun x => if x = 0 then 0 else Real.log (if x ≤ 1 then 1 else x)), (),
        by unfold plogIn; rw [ho, hv]; simp only [hd], writeBuf_wf hw _ _, ext_writeBuf he hb _, ?_⟩
      have := new_writeBuf hw ho hn.idx hb hv (fun x => if x = 0 then 0 else Real.log (if x ≤ 1 then 1 else x))
      unfold TMat.plog
      rw [hty, hd]
      simpa [hty, hd] using this
    | dense =>
      have h1 := new_writeBuf hw ho hn.idx hb hv (fun x => if x < 1 then 1 else x)
      have hw1 := writeBuf_wf hw o (fun x => if x < 1 then 1 else x)
      have he1 := ext_writeBuf he hb (fun x => if x < 1 then 1 else x)
      have ho1 : (h.writeBuf o (fun x => if x < 1 then 1 else x)).objs[k]? = some o := ho
      refine ⟨_, (), by unfold plogIn; rw [ho, hv]; simp only [hd]; rw [h1.mat], rebind_wf hw1 _ _,
        ext_rebind he1 hn.idx _, ?_⟩
      have h2 := new_rebind he1 ho1 hr hn.idx ⟨.dense, (t.val.map (fun x => if x < 1 then 1 else x)).map Real.log⟩ hd.symm
      have h3 : t.plog = ⟨.dense, (t.val.map (fun x => if x < 1 then 1 else x)).map Real.log⟩ := by
        unfold TMat.plog
        rw [hty, hd]
        refine TMat.ext' rfl (Mat.ext' rfl rfl (fun i j hi hj => ?_))
        simp only [Mat.map_nr, Mat.map_nc] at hi hj
        rw [Mat.map_get_lt _ _ hi hj, Mat.map_get_lt _ _ (by simpa using hi) (by simpa using hj),
          Mat.map_get_lt _ _ hi hj]
      rw [h3]
      exact h2
  | nonNegative =>
    show Does h0 h (nonNegIn k) (.ok t.toNonNegative) _
    cases hd : o.ty with
    | sparse =>
      refine ⟨_, (), by unfold nonNegIn; rw [ho, hv]; simp only [hd]; rfl, writeBuf_wf hw _ _, ext_writeBuf he hb _, ?_⟩
      exact new_writeBuf hw ho hn.idx hb hv _
    | dense =>
      refine ⟨_, (), by unfold nonNegIn; rw [ho, hv]; simp only [hd]; rfl, rebind_wf hw _ _, ext_rebind he hn.idx _, ?_⟩
      exact new_rebind he ho hr hn.idx _ hty
  | ones =>
    show Does h0 h (onesIn k) (.ok t.toOnes) _
    cases hd : o.ty with
    | sparse =>
      refine ⟨_, (), by unfold onesIn; rw [ho, hv]; simp only [hd]; rfl, writeBuf_wf hw _ _, ext_writeBuf he hb _, ?_⟩
      exact new_writeBuf hw ho hn.idx hb hv _
    | dense =>
      refine ⟨_, (), by unfold onesIn; rw [ho, hv]; simp only [hd]; rfl, rebind_wf hw _ _, ext_rebind he hn.idx _, ?_⟩
      exact new_rebind he ho hr hn.idx _ hty
  | reshape nr nc =>
    show Does h0 h (reshapeIn k nr nc) (t.reshape nr nc) _
    unfold TMat.reshape
    by_cases hs : t.nr * t.nc = nr * nc
    · rw [if_pos hs]
      cases hd : o.ty with
      | sparse =>
        refine ⟨_, (), by unfold reshapeIn; rw [ho, hv]; simp only [hd, if_pos hs]; rfl, rebind_wf hw _ _,
          ext_rebind he hn.idx _, ?_⟩
        rw [hty, hd]
        exact new_rebind he ho hr hn.idx _ hd.symm
      | dense =>
        have hs' : o.nr * o.nc = nr * nc := by rw [← hsh.1, ← hsh.2]; exact hs
        refine ⟨_, (), by unfold reshapeIn; rw [ho, hv]; simp only [hd, if_pos hs], reshapeView_wf hw ho hs',
          ⟨he.bufs, prefix_modify he.objs hn.idx _⟩, ?_⟩
        have ho' : (h.reshapeView k nr nc).objs[k]? = some { o with nr := nr, nc := nc } := by
          simp [reshapeView, ho]
        refine ⟨?_, ⟨_, ho', hb⟩, hn.idx⟩
        obtain ⟨o2, b, ho2, _, hb2, rfl⟩ := matrix_some hv
        rw [ho] at ho2
        obtain rfl := Option.some.inj ho2
        obtain ⟨b', hb', hsz⟩ := hw o (List.mem_of_getElem? ho)
        rw [hb2] at hb'
        obtain rfl := Option.some.inj hb'
        rw [matrix_of ho' hr (b := b) hb2]
        simp only
        rw [Mat.reshape_reshape hsz hs']
    · rw [if_neg hs]
      exact ⟨h, by unfold reshapeIn; rw [ho, hv]; simp only [if_neg hs], hw, he⟩

end HM
end
end Dissect
