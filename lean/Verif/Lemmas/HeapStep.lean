import Verif.Lemmas.HeapOps
import Verif.Spec.Heap

/-! # Single calls and histories on the matrix heap -/

namespace Dissect
noncomputable section
open Heap

theorem wf_empty : Heap.empty.WF := by intro o ho; simp [Heap.empty] at ho

namespace HM

theorem wrap_frame {h : Heap} (hw : h.WF) (ty : MTy) (i : ℕ) :
    (HM.wrap ty i h).1.WF ∧ Ext h (HM.wrap ty i h).1 := by
  unfold HM.wrap
  split
  · rename_i o t ho ht
    split
    · exact ⟨hw, Ext.refl h⟩
    · split
      · exact ⟨pushShared_wf hw (List.mem_of_getElem? ho), pushShared_ext h o⟩
      · split
        · exact ⟨hw, Ext.refl h⟩
        · exact ⟨push_wf hw _ _, push_ext h _ _⟩
  · exact ⟨hw, Ext.refl h⟩

theorem read1_frame {α : Type} {h : Heap} (hw : h.WF) {i : ℕ} {f : TMat ℝ → HM α}
    (hf : ∀ t, h.matrix i = some t → ((HM.read i >>= f) h).1.WF ∧ Ext h ((HM.read i >>= f) h).1) :
    ((HM.read i >>= f) h).1.WF ∧ Ext h ((HM.read i >>= f) h).1 := by
  cases hv : h.matrix i with
  | none => rw [read_none hv]; exact ⟨hw, Ext.refl h⟩
  | some t => exact hf t hv

/-- Programs that fail when their argument is not a `Matrix`. -/
theorem none_of_read {α : Type} {h : Heap} {i : ℕ} (hv : h.matrix i = none) {p : HM α} {f : TMat ℝ → HM α}
    (hp : p = (HM.read i >>= f)) : p h = (h, .error .attributeError) := by
  rw [hp]; exact read_none hv f

theorem bind_error {α β : Type} {h h' : Heap} {p : HM α} {e : PyErr} (hp : p h = (h', .error e)) (f : α → HM β) :
    (p >>= f) h = (h', .error e) := by
  show HM.andThen p f h = _
  unfold HM.andThen
  rw [hp]

theorem call1_none {h : Heap} {i : ℕ} (hv : h.matrix i = none) (f : Meth1) :
    HM.call1 f i h = (h, .error .attributeError) := read_none hv _

theorem epmi_none {h : Heap} {i : ℕ} (hv : h.matrix i = none) (mg : Option (Arr ℝ)) :
    HM.epmi i mg h = (h, .error .attributeError) := read_none hv _

theorem ppmi_none {h : Heap} {i : ℕ} (hv : h.matrix i = none) (mg : Option (Arr ℝ)) :
    HM.ppmi i mg h = (h, .error .attributeError) := bind_error (epmi_none hv mg) _

theorem plmi_none {h : Heap} {i : ℕ} (hv : h.matrix i = none) (mg : Option (Arr ℝ)) :
    HM.plmi i mg h = (h, .error .attributeError) := bind_error (ppmi_none hv mg) _

theorem scaling_none {h : Heap} {i : ℕ} (hv : h.matrix i = none) (t : ScalingT) (st : Option Stats) :
    ∃ e, HM.scaling t i st h = (h, .error e) := by
  cases t with
  | epmi => rcases st with _ | (_ | _) <;> first | exact ⟨_, epmi_none hv _⟩ | exact ⟨_, rfl⟩
  | ppmi => rcases st with _ | (_ | _) <;> first | exact ⟨_, ppmi_none hv _⟩ | exact ⟨_, rfl⟩
  | plmi => rcases st with _ | (_ | _) <;> first | exact ⟨_, plmi_none hv _⟩ | exact ⟨_, rfl⟩
  | plog => rcases st with _ | (_ | _) <;> first | exact ⟨_, bind_error (call1_none hv _) _⟩ | exact ⟨_, rfl⟩
  | rowNorm c => rcases st with _ | (_ | _) <;> first | exact ⟨_, read_none hv _⟩ | exact ⟨_, rfl⟩
  | norm c => rcases st with _ | (_ | _) <;> first | exact ⟨_, read_none hv _⟩ | exact ⟨_, rfl⟩

theorem project_tm_none {h : Heap} {i tm : ℕ} {m : TMat ℝ} (hi : h.matrix i = some m)
    (hv : h.matrix tm = none) (b : Bool) : ∃ e, HM.project b i tm h = (h, .error e) := by
  unfold HM.project
  rw [read_bind hi]
  cases ha : (if b then m.assertPositive else (.ok () : Py Unit)) with
  | error e =>
    exact ⟨e, bind_error (h' := h) rfl _⟩
  | ok u =>
    refine ⟨.attributeError, ?_⟩
    show (HM.resolve2 (some m.ty) i tm >>= _) h = _
    refine bind_error ?_ _
    unfold HM.resolve2
    rw [read_bind hi]
    exact read_none hv _

end HM

open HM

/-- No call except the four in-place methods changes anything that existed. -/
theorem step_frame (env : Env) {h : Heap} (hw : h.WF) (c : HCall) (hc : c.isInPlace = false) :
    (c.step env h).1.WF ∧ Ext h (c.step env h).1 := by
  have hnone : ∀ {p : HM ℕ} {e : PyErr}, p h = (h, .error e) → (p h).1.WF ∧ Ext h (p h).1 := by
    intro p e hp; rw [hp]; exact ⟨hw, Ext.refl h⟩
  cases c with
  | array t => exact ⟨push_wf hw _ _, push_ext h _ _⟩
  | wrap ty i =>
    show (((HM.wrap ty i >>= fun r => (pure [r] : HM (List ℕ))) h).1).WF ∧ _
    rw [HCall.step, map_run]; exact wrap_frame hw ty i
  | call1 f i =>
    rw [HCall.step, map_run]
    cases hv : h.matrix i with
    | none => exact hnone (call1_none hv f)
    | some t => exact (Does.call1 hw (Ext.refl h) hv f).frame
  | call2 f i j =>
    rw [HCall.step, map_run]
    cases hv : h.matrix i with
    | none => exact hnone (read_none hv _)
    | some s =>
      cases hu : h.matrix j with
      | none => exact hnone (e := .attributeError) (by unfold HM.call2; rw [read_bind hv]; exact read_none hu _)
      | some t => exact (Does.call2 hw (Ext.refl h) hv hu f).frame
  | inPlace f i => simp [HCall.isInPlace] at hc
  | scaling t i st =>
    rw [HCall.step, map_run]
    cases hv : h.matrix i with
    | none => obtain ⟨e, he⟩ := scaling_none hv t st; exact hnone he
    | some m => exact (Does.scaling hw hv t st).frame
  | select k cr i =>
    rw [HCall.step, map_run]
    cases hv : h.matrix i with
    | none => exact hnone (read_none hv _)
    | some m => exact (Does.select hw hv k cr).frame
  | reduce t i =>
    rw [HCall.step, map_run]
    cases hv : h.matrix i with
    | none =>
      have : HM.reduce env t i h = (h, .error .attributeError) := read_none hv _
      rw [this]; exact ⟨hw, Ext.refl h⟩
    | some m => exact (Does.reduce env hw hv t).frame
  | project b i tm =>
    rw [HCall.step, map_run]
    cases hv : h.matrix i with
    | none => exact hnone (read_none hv _)
    | some m =>
      cases hu : h.matrix tm with
      | none => obtain ⟨e, he⟩ := project_tm_none hv hu b; exact hnone he
      | some u => exact (Does.projectB hw hv hu b).frame
  | linSim i j =>
    rw [HCall.step, map_run]
    cases hv : h.matrix i with
    | none =>
      have : HM.linSim i j h = (h, .error .attributeError) := read_none hv _
      rw [this]; exact ⟨hw, Ext.refl h⟩
    | some s =>
      cases hu : h.matrix j with
      | none =>
        have : HM.linSim i j h = (h, .error .attributeError) := by
          unfold HM.linSim; rw [read_bind hv]; exact read_none hu _
        rw [this]; exact ⟨hw, Ext.refl h⟩
      | some t => exact (Does.linSim hw hv hu).frame
  | lexOne b fs arg fi ai sh =>
    rw [HCall.step, map_run]
    cases hv : h.matrix fs with
    | none => exact hnone (read_none hv _)
    | some s =>
      cases hu : h.matrix arg with
      | none => exact hnone (e := .attributeError) (by unfold HM.lexOne; rw [read_bind hv]; exact read_none hu _)
      | some t => exact (Does.lexOneB hw hv hu b fi ai sh).frame

/-! ### In-place methods on arbitrary objects -/

/-- Which buffer an object reads. -/
def Heap.bufOf (h : Heap) (i : ℕ) : Option ℕ := (h.objs[i]?).map HObj.buf

/-- Is it a numpy matrix or csr matrix? -/
def Heap.rawOf (h : Heap) (i : ℕ) : Option Bool := (h.objs[i]?).map HObj.raw

/-- What an in-place method does to the heap. -/
structure Changes (h h' : Heap) (i : ℕ) : Prop where
  wf : h'.WF
  len : h'.objs.length = h.objs.length
  bufs : h.bufs.length ≤ h'.bufs.length
  others : ∀ j, j ≠ i → h'.objs[j]? = h.objs[j]?
  raws : ∀ j, h'.rawOf j = h.rawOf j
  own : h'.bufOf i = h.bufOf i ∨ ∃ b, h.bufs.length ≤ b ∧ h'.bufOf i = some b
  apart : ∀ j b, h.bufOf j = some b → h.bufOf i ≠ some b → h'.bufs[b]? = h.bufs[b]?

theorem Changes.refl {h : Heap} (hw : h.WF) (i : ℕ) : Changes h h i :=
  ⟨hw, rfl, le_refl _, fun _ _ => rfl, fun _ => rfl, Or.inl rfl, fun _ _ _ _ => rfl⟩

theorem buf_lt {h : Heap} (hw : h.WF) {j b : ℕ} (hb : h.bufOf j = some b) : b < h.bufs.length := by
  unfold Heap.bufOf at hb
  rw [Option.map_eq_some_iff] at hb
  obtain ⟨o, ho, rfl⟩ := hb
  obtain ⟨m, hm, _⟩ := hw o (List.mem_of_getElem? ho)
  exact (List.getElem?_eq_some_iff.1 hm).1

theorem Changes.view_apart {h h' : Heap} {i j : ℕ} (hc : Changes h h' i) (hji : j ≠ i)
    (hb : h.bufOf j ≠ h.bufOf i) : h'.view j = h.view j := by
  unfold Heap.view
  rw [hc.others j hji]
  cases ho : h.objs[j]? with
  | none => rfl
  | some o =>
    have hj : h.bufOf j = some o.buf := by unfold Heap.bufOf; rw [ho]; rfl
    simp only [Option.bind_some, Heap.value]
    rw [hc.apart j o.buf hj (fun hc' => hb (hj.trans hc'.symm))]

theorem changes_writeBuf {h : Heap} (hw : h.WF) {i : ℕ} {o : HObj} (ho : h.objs[i]? = some o) (f : ℝ → ℝ) :
    Changes h (h.writeBuf o f) i := by
  refine ⟨writeBuf_wf hw o f, rfl, by simp [Heap.writeBuf], fun _ _ => rfl, fun _ => rfl, Or.inl rfl,
    fun j b _ hne => ?_⟩
  have : o.buf ≠ b := fun hc => hne (by unfold Heap.bufOf; rw [ho, ← hc]; rfl)
  simp [Heap.writeBuf, this]

theorem changes_rebind {h : Heap} (hw : h.WF) {i : ℕ} {o : HObj} (ho : h.objs[i]? = some o) (t : TMat ℝ) :
    Changes h (h.rebind i t) i := by
  refine ⟨rebind_wf hw i t, by simp [Heap.rebind], by simp [Heap.rebind], fun j hj => rebind_other (Ne.symm hj) t,
    fun j => ?_, Or.inr ⟨h.bufs.length, le_refl _, ?_⟩, fun j b hb _ => ?_⟩
  · by_cases hij : i = j
    · subst hij
      unfold Heap.rawOf
      rw [rebind_obj ho t, ho]
      rfl
    · unfold Heap.rawOf
      rw [rebind_other hij t]
  · unfold Heap.bufOf
    rw [rebind_obj ho t]
    rfl
  · simp only [Heap.rebind]
    rw [List.getElem?_append_left (buf_lt hw hb)]

theorem changes_reshapeView {h : Heap} (hw : h.WF) {i : ℕ} {o : HObj} (ho : h.objs[i]? = some o) {nr nc : ℕ}
    (hs : o.nr * o.nc = nr * nc) : Changes h (h.reshapeView i nr nc) i := by
  have hobj : (h.reshapeView i nr nc).objs[i]? = some { o with nr := nr, nc := nc } := by simp [Heap.reshapeView, ho]
  refine ⟨reshapeView_wf hw ho hs, by simp [Heap.reshapeView], le_refl _, fun j hj => ?_, fun j => ?_, Or.inl ?_,
    fun _ _ _ _ => rfl⟩
  · have : ¬ i = j := fun h => hj h.symm
    simp [Heap.reshapeView, this]
  · by_cases hij : i = j
    · subst hij
      unfold Heap.rawOf
      rw [hobj, ho]
      rfl
    · unfold Heap.rawOf
      simp [Heap.reshapeView, hij]
  · unfold Heap.bufOf
    rw [hobj, ho]
    rfl

theorem Changes.trans {a b c : Heap} (hw : a.WF) {i : ℕ} (h1 : Changes a b i) (h2 : Changes b c i) : Changes a c i := by
  refine ⟨h2.wf, h2.len.trans h1.len, h1.bufs.trans h2.bufs, fun j hj => (h2.others j hj).trans (h1.others j hj),
    fun j => (h2.raws j).trans (h1.raws j), ?_, ?_⟩
  · rcases h2.own with ho | ⟨x, hx, ho⟩
    · rcases h1.own with ho1 | ⟨y, hy, ho1⟩
      · exact Or.inl (ho.trans ho1)
      · exact Or.inr ⟨y, hy, ho.trans ho1⟩
    · exact Or.inr ⟨x, h1.bufs.trans hx, ho⟩
  · intro j x hx hne
    by_cases hji : j = i
    · subst hji; exact absurd hx hne
    · have hbx : b.bufOf j = some x := by unfold Heap.bufOf at hx ⊢; rw [h1.others j hji]; exact hx
      have hne2 : b.bufOf i ≠ some x := by
        rcases h1.own with ho | ⟨y, hy, ho⟩
        · rw [ho]; exact hne
        · rw [ho]
          intro hc
          obtain rfl := Option.some.inj hc
          have := buf_lt hw hx
          omega
      rw [h2.apart j x hbx hne2, h1.apart j x hx hne]

/-- Everything is new relative to the empty heap. -/
theorem new_empty {h : Heap} {i : ℕ} {t : TMat ℝ} (hv : h.matrix i = some t) : New Heap.empty h i t := by
  obtain ⟨o, b, ho, _, _, _⟩ := matrix_some hv
  exact ⟨hv, ⟨o, ho, by simp [Heap.empty]⟩, by simp [Heap.empty]⟩

theorem ext_empty (h : Heap) : Ext Heap.empty h := ⟨List.nil_prefix, List.nil_prefix⟩

/-- An in-place method on something that is not a `Matrix`. -/
theorem inPlace_none {h : Heap} {i : ℕ} (hv : h.matrix i = none) (f : InPlace) :
    f.run i h = (h, .error .attributeError) := by
  cases f
  · show HM.plogIn i h = _; unfold HM.plogIn; rw [hv]; cases h.objs[i]? <;> rfl
  · show HM.nonNegIn i h = _; unfold HM.nonNegIn; rw [hv]; cases h.objs[i]? <;> rfl
  · show HM.onesIn i h = _; unfold HM.onesIn; rw [hv]; cases h.objs[i]? <;> rfl
  · show HM.reshapeIn i _ _ h = _; unfold HM.reshapeIn; rw [hv]; cases h.objs[i]? <;> rfl

/-- An in-place method changes at most the receiver and what reads the same buffer. -/
theorem inPlace_changes {h : Heap} (hw : h.WF) (f : InPlace) (i : ℕ) : Changes h (f.run i h).1 i := by
  cases hv : h.matrix i with
  | none => rw [inPlace_none hv]; exact Changes.refl hw i
  | some t =>
    obtain ⟨o, b, ho, hr, hb, ht⟩ := matrix_some hv
    have hsh := view_shape ho hv
    cases f with
    | plog =>
      show Changes h (HM.plogIn i h).1 i
      unfold HM.plogIn
      rw [ho, hv]
      cases hd : o.ty with
      | sparse => simp only [hd]; exact changes_writeBuf hw ho _
      | dense =>
        have c1 := changes_writeBuf hw ho (fun x => if x < 1 then 1 else x)
        simp only [hd]
        cases hm : (h.writeBuf o (fun x => if x < 1 then 1 else x)).matrix i with
        | none => exact Changes.refl hw i
        | some t' =>
          have ho1 : (h.writeBuf o (fun x => if x < 1 then 1 else x)).objs[i]? = some o := ho
          exact Changes.trans hw c1 (changes_rebind c1.wf ho1 _)
    | nonNegative =>
      show Changes h (HM.nonNegIn i h).1 i
      unfold HM.nonNegIn
      rw [ho, hv]
      cases hd : o.ty with
      | sparse => simp only [hd]; exact changes_writeBuf hw ho _
      | dense => simp only [hd]; exact changes_rebind hw ho _
    | ones =>
      show Changes h (HM.onesIn i h).1 i
      unfold HM.onesIn
      rw [ho, hv]
      cases hd : o.ty with
      | sparse => simp only [hd]; exact changes_writeBuf hw ho _
      | dense => simp only [hd]; exact changes_rebind hw ho _
    | reshape nr nc =>
      show Changes h (HM.reshapeIn i nr nc h).1 i
      unfold HM.reshapeIn
      rw [ho, hv]
      simp only
      split
      · rename_i hs
        cases hd : o.ty with
        | sparse => simp only [hd]; exact changes_rebind hw ho _
        | dense => simp only [hd]; exact changes_reshapeView hw ho (by rw [← hsh.1, ← hsh.2]; exact hs)
      · exact Changes.refl hw i

/-- The receiver gets its documented value; a refused call changes nothing. -/
theorem inPlace_value {h : Heap} (hw : h.WF) (f : InPlace) {i : ℕ} {t : TMat ℝ} (hv : h.matrix i = some t) :
    match f.eval t with
    | .ok r => ∃ h', f.run i h = (h', .ok ()) ∧ h'.matrix i = some r
    | .error e => f.run i h = (h, .error e) := by
  have hd := Does.inPlace hw (ext_empty h) (new_empty hv) f
  unfold Does at hd
  cases hx : f.eval t with
  | ok r =>
    rw [hx] at hd
    obtain ⟨h', u, hp, _, _, hn⟩ := hd
    exact ⟨h', hp, hn.mat⟩
  | error e =>
    simp only
    cases f with
    | plog => simp [InPlace.eval] at hx
    | nonNegative => simp [InPlace.eval] at hx
    | ones => simp [InPlace.eval] at hx
    | reshape nr nc =>
      obtain ⟨o, b, ho, hr, hb, ht⟩ := matrix_some hv
      show HM.reshapeIn i nr nc h = _
      have hx' : t.reshape nr nc = .error e := hx
      unfold TMat.reshape at hx'
      unfold HM.reshapeIn
      rw [ho, hv]
      by_cases hs : t.nr * t.nc = nr * nc
      · rw [if_pos hs] at hx'; simp at hx'
      · rw [if_neg hs] at hx'
        simp only [if_neg hs]
        injection hx' with hx'
        rw [hx']

theorem inPlace_step (env : Env) (h : Heap) (f : InPlace) (i : ℕ) :
    ((HCall.inPlace f i).step env h).1 = (f.run i h).1 := by
  rw [HCall.step, map_run]

/-- Every call keeps the heap well formed. -/
theorem step_wf (env : Env) {h : Heap} (hw : h.WF) (c : HCall) : (c.step env h).1.WF := by
  by_cases hc : c.isInPlace = true
  · cases c with
    | inPlace f i => rw [inPlace_step]; exact (inPlace_changes hw f i).wf
    | _ => simp [HCall.isInPlace] at hc
  · exact (step_frame env hw c (by simpa using hc)).1

theorem session_heap (env : Env) (s : Session) (c : HCall) : (s.step env c).heap = (c.step env s.heap).1 := by
  unfold Session.step
  rcases c.step env s.heap with ⟨h, _ | _⟩ <;> rfl

theorem reachable_wf {env : Env} {s : Session} (hr : Reachable env s) : s.heap.WF := by
  induction hr with
  | start => exact wf_empty
  | step c _ _ ih => rw [session_heap]; exact step_wf env ih c

theorem ReachableOnce.reachable {env : Env} {s : Session} (hr : ReachableOnce env s) : Reachable env s := by
  induction hr with
  | start => exact .start
  | step c _ hc _ ih => exact .step c ih hc

/-! ### Results of calls -/

theorem Heap.New.bufOf {h0 h : Heap} {k : ℕ} {t : TMat ℝ} (hn : New h0 h k t) : ∃ b, h.bufOf k = some b ∧ h0.bufs.length ≤ b := by
  obtain ⟨o, ho, hb⟩ := hn.obj
  exact ⟨o.buf, by unfold Heap.bufOf; rw [ho]; rfl, hb⟩

/-- The objects a call returns are its argument (a normalisation with total 0), or have new buffers, all different.
Constructors are separate. -/
theorem step_results (env : Env) {h h' : Heap} (hw : h.WF) (c : HCall) (hip : c.isInPlace = false) {rs : List ℕ}
    (hg : c.gives = []) (hs : c.step env h = (h', .ok rs)) :
    (∃ i, c.args = [i] ∧ rs = [i] ∧ h' = h ∧ ∃ t st m, c = .scaling t i st ∧ h.matrix i = some m ∧ t.returnsArg m st) ∨
    ((∀ r ∈ rs, h.objs.length ≤ r ∧ ∃ b, h'.bufOf r = some b ∧ h.bufs.length ≤ b) ∧
      rs.Pairwise (fun r r' => h'.bufOf r ≠ h'.bufOf r')) := by
  have one : ∀ {p : HM ℕ} {v : Py (TMat ℝ)}, (p >>= fun r => (pure [r] : HM (List ℕ))) h = (h', .ok rs) →
      Does h h p v (fun h' k r => New h h' k r) →
      ((∀ r ∈ rs, h.objs.length ≤ r ∧ ∃ b, h'.bufOf r = some b ∧ h.bufs.length ≤ b) ∧
      rs.Pairwise (fun r r' => h'.bufOf r ≠ h'.bufOf r')) := by
    intro p v hp hd
    rw [map_run] at hp
    rcases hx : p h with ⟨h1, e | k⟩
    · rw [hx] at hp; simp [Except.map] at hp
    · rw [hx] at hp
      simp only [Except.map, Prod.mk.injEq, Except.ok.injEq] at hp
      obtain ⟨rfl, rfl⟩ := hp
      obtain ⟨r, _, hn⟩ := hd.result hx
      refine ⟨?_, by simp⟩
      intro x hx'
      rw [List.mem_singleton] at hx'
      subst hx'
      exact ⟨hn.idx, hn.bufOf⟩
  have bad : ∀ {p : HM ℕ} {e : PyErr}, (p >>= fun r => (pure [r] : HM (List ℕ))) h = (h', .ok rs) →
      p h = (h, .error e) → False := by
    intro p e hp he
    rw [map_run, he] at hp
    simp [Except.map] at hp
  cases c with
  | array t =>
    right
    simp only [HCall.step, Prod.mk.injEq, Except.ok.injEq] at hs
    obtain ⟨rfl, rfl⟩ := hs
    refine ⟨?_, by simp⟩
    intro r hr
    rw [List.mem_singleton] at hr
    subst hr
    exact ⟨le_refl _, h.bufs.length, by simp [Heap.bufOf, Heap.push], le_refl _⟩
  | wrap ty i => simp [HCall.gives] at hg
  | call1 f i =>
    right
    cases hv : h.matrix i with
    | none => exact (bad hs (call1_none hv f)).elim
    | some t => exact one hs (Does.new_base (Ext.refl h) (Does.call1 hw (Ext.refl h) hv f))
  | call2 f i j =>
    right
    cases hv : h.matrix i with
    | none => exact (bad hs (read_none hv _)).elim
    | some s =>
      cases hu : h.matrix j with
      | none =>
        exact (bad (e := .attributeError) hs (by unfold HM.call2; rw [read_bind hv]; exact read_none hu _)).elim
      | some t => exact one hs (Does.new_base (Ext.refl h) (Does.call2 hw (Ext.refl h) hv hu f))
  | inPlace f i => simp [HCall.isInPlace] at hip
  | scaling t i st =>
    cases hv : h.matrix i with
    | none =>
      obtain ⟨e, he⟩ := scaling_none hv t st
      exact (bad hs he).elim
    | some m =>
      have hd := Does.scaling hw hv t st
      have hs' := hs
      rw [HCall.step, map_run] at hs'
      rcases hx : HM.scaling t i st h with ⟨h1, e | k⟩
      · rw [hx] at hs'; simp [Except.map] at hs'
      · rw [hx] at hs'
        simp only [Except.map, Prod.mk.injEq, Except.ok.injEq] at hs'
        obtain ⟨rfl, rfl⟩ := hs'
        obtain ⟨r, _, _, hR⟩ := hd.result hx
        rcases hR with ⟨hret, rfl, rfl⟩ | ⟨_, hn⟩
        · exact Or.inl ⟨k, rfl, rfl, rfl, t, st, m, rfl, hv, hret⟩
        · refine Or.inr ⟨?_, by simp⟩
          intro x hx'
          rw [List.mem_singleton] at hx'
          subst hx'
          exact ⟨hn.idx, hn.bufOf⟩
  | select k cr i =>
    right
    cases hv : h.matrix i with
    | none => exact (bad hs (read_none hv _)).elim
    | some m =>
      have hs' := hs
      rw [HCall.step, map_run] at hs'
      rcases hx : HM.select k cr i h with ⟨h1, e | j⟩
      · rw [hx] at hs'; simp [Except.map] at hs'
      · rw [hx] at hs'
        simp only [Except.map, Prod.mk.injEq, Except.ok.injEq] at hs'
        obtain ⟨rfl, rfl⟩ := hs'
        obtain ⟨r, _, hn⟩ := (Does.select hw hv k cr).result hx
        refine ⟨?_, by simp⟩
        intro x hx'
        rw [List.mem_singleton] at hx'
        subst hx'
        exact ⟨hn.idx, hn.bufOf⟩
  | reduce t i =>
    right
    rw [HCall.step, map_run] at hs
    cases hv : h.matrix i with
    | none =>
      have : HM.reduce env t i h = (h, .error .attributeError) := read_none hv _
      rw [this] at hs
      simp [Except.map] at hs
    | some m =>
      rcases hx : HM.reduce env t i h with ⟨h1, e | k⟩
      · rw [hx] at hs; simp [Except.map] at hs
      · rw [hx] at hs
        simp only [Except.map, Prod.mk.injEq, Except.ok.injEq] at hs
        obtain ⟨rfl, rfl⟩ := hs
        obtain ⟨r, _, hn1, hn2, o, o', ho, ho', hne⟩ := (Does.reduce env hw hv t).result hx
        refine ⟨?_, ?_⟩
        · intro x hx'
          rcases List.mem_cons.1 hx' with rfl | hx'
          · exact ⟨hn1.idx, hn1.bufOf⟩
          · rw [List.mem_singleton] at hx'
            subst hx'
            exact ⟨hn2.idx, hn2.bufOf⟩
        · simp only [List.pairwise_cons, List.mem_singleton, forall_eq, List.not_mem_nil, false_imp_iff,
            implies_true, List.Pairwise.nil, and_true]
          unfold Heap.bufOf
          rw [ho, ho']
          simpa using hne
  | project b i tm =>
    right
    cases hv : h.matrix i with
    | none => exact (bad hs (read_none hv _)).elim
    | some m =>
      cases hu : h.matrix tm with
      | none =>
        obtain ⟨e, he⟩ := project_tm_none hv hu b
        exact (bad hs he).elim
      | some u => exact one hs (Does.projectB hw hv hu b)
  | linSim i j =>
    right
    rw [HCall.step, map_run] at hs
    rcases hx : HM.linSim i j h with ⟨h1, e | k⟩
    · rw [hx] at hs; simp [Except.map] at hs
    · rw [hx] at hs
      simp only [Except.map, Prod.mk.injEq, Except.ok.injEq] at hs
      obtain ⟨rfl, rfl⟩ := hs
      simp
  | lexOne b fs arg fi ai sh =>
    right
    cases hv : h.matrix fs with
    | none => exact (bad hs (read_none hv _)).elim
    | some s =>
      cases hu : h.matrix arg with
      | none =>
        exact (bad (e := .attributeError) hs (by unfold HM.lexOne; rw [read_bind hv]; exact read_none hu _)).elim
      | some t => exact one hs (Does.lexOneB hw hv hu b fi ai sh)

/-- What a constructor does to the heap. -/
theorem wrap_cases {h h' : Heap} {ty : MTy} {i k : ℕ} (hs : HM.wrap ty i h = (h', .ok k)) :
    k = h.objs.length ∧ ∃ o t, h.objs[i]? = some o ∧ h.view i = some t ∧ t.ty = o.ty ∧
      ((o.ty = ty ∧ h' = h.pushShared o) ∨ (o.ty ≠ ty ∧ ∃ t', t.toType ty = .ok t' ∧ h' = h.push false t')) := by
  unfold HM.wrap at hs
  cases ho : h.objs[i]? with
  | none => rw [ho] at hs; simp at hs
  | some o =>
    cases hv : h.view i with
    | none => rw [ho, hv] at hs; simp at hs
    | some t =>
      rw [ho, hv] at hs
      simp only at hs
      have hty : t.ty = o.ty := by
        obtain ⟨o', b, ho', _, rfl⟩ := view_some hv
        rw [ho] at ho'
        obtain rfl := Option.some.inj ho'
        rfl
      split at hs
      · simp at hs
      · split at hs
        · rename_i hc
          simp only [Prod.mk.injEq, Except.ok.injEq] at hs
          exact ⟨hs.2.symm, o, t, rfl, rfl, hty, Or.inl ⟨hc, hs.1.symm⟩⟩
        · rename_i hc
          split at hs
          · simp at hs
          · rename_i t' ht'
            simp only [Prod.mk.injEq, Except.ok.injEq] at hs
            exact ⟨hs.2.symm, o, t, rfl, rfl, hty, Or.inr ⟨hc, t', ht', hs.1.symm⟩⟩

/-- Objects that read the same buffer, in a history where arrays are given away once. -/
structure Inv (s : Session) : Prop where
  wf : s.heap.WF
  lt : ∀ i ∈ s.held, i < s.heap.objs.length
  sep : ∀ i ∈ s.held, ∀ j ∈ s.held, i ≠ j → s.heap.bufOf i = s.heap.bufOf j →
    (s.heap.rawOf i = some true ∧ i ∈ s.given) ∨ (s.heap.rawOf j = some true ∧ j ∈ s.given)

theorem ext_bufOf {h h' : Heap} (he : Ext h h') {i : ℕ} (hi : i < h.objs.length) : h'.bufOf i = h.bufOf i := by
  unfold Heap.bufOf
  have := List.getElem?_eq_getElem hi
  rw [this, prefix_getElem? he.objs this]

theorem ext_rawOf {h h' : Heap} (he : Ext h h') {i : ℕ} (hi : i < h.objs.length) : h'.rawOf i = h.rawOf i := by
  unfold Heap.rawOf
  have := List.getElem?_eq_getElem hi
  rw [this, prefix_getElem? he.objs this]

/-- Adding objects with new buffers. -/
theorem inv_extend {h h' : Heap} {held given : List ℕ} (hI : Inv ⟨h, held, given⟩) (hw : h'.WF) (he : Ext h h')
    {rs : List ℕ} (hnew : ∀ r ∈ rs, h.objs.length ≤ r ∧ ∃ b, h'.bufOf r = some b ∧ h.bufs.length ≤ b)
    (hpw : rs.Pairwise (fun r r' => h'.bufOf r ≠ h'.bufOf r')) (given' : List ℕ) :
    Inv ⟨h', held ++ rs, given ++ given'⟩ := by
  have hbo : ∀ i ∈ held, ∃ b, h'.bufOf i = some b ∧ b < h.bufs.length := by
    intro i hi
    have hlt := hI.lt i hi
    rw [ext_bufOf he hlt]
    have : h.bufOf i = some (h.objs[i].buf) := by
      unfold Heap.bufOf
      rw [List.getElem?_eq_getElem hlt]
      rfl
    exact ⟨_, this, buf_lt hI.wf this⟩
  refine ⟨hw, ?_, ?_⟩
  · intro i hi
    rcases List.mem_append.1 hi with hi | hi
    · exact lt_of_lt_of_le (hI.lt i hi) he.objs_lt
    · obtain ⟨_, b, hb, _⟩ := hnew i hi
      unfold Heap.bufOf at hb
      rw [Option.map_eq_some_iff] at hb
      obtain ⟨o, ho, _⟩ := hb
      exact (List.getElem?_eq_some_iff.1 ho).1
  · intro i hi j hj hij hb
    simp only at hb ⊢
    rcases List.mem_append.1 hi with hi | hi <;> rcases List.mem_append.1 hj with hj | hj
    · rw [ext_bufOf he (hI.lt i hi), ext_bufOf he (hI.lt j hj)] at hb
      rw [ext_rawOf he (hI.lt i hi), ext_rawOf he (hI.lt j hj)]
      rcases hI.sep i hi j hj hij hb with h1 | h1
      · exact Or.inl ⟨h1.1, List.mem_append_left _ h1.2⟩
      · exact Or.inr ⟨h1.1, List.mem_append_left _ h1.2⟩
    · obtain ⟨b, hb1, hlt⟩ := hbo i hi
      obtain ⟨_, b', hb2, hge⟩ := hnew j hj
      rw [hb1, hb2] at hb
      obtain rfl := Option.some.inj hb
      omega
    · obtain ⟨b, hb1, hlt⟩ := hbo j hj
      obtain ⟨_, b', hb2, hge⟩ := hnew i hi
      rw [hb1, hb2] at hb
      obtain rfl := Option.some.inj hb
      omega
    · exfalso
      have : ∀ l : List ℕ, l.Pairwise (fun r r' => h'.bufOf r ≠ h'.bufOf r') → ∀ x ∈ l, ∀ y ∈ l, x ≠ y →
          h'.bufOf x ≠ h'.bufOf y := by
        intro l hl
        induction l with
        | nil => simp
        | cons a l ihl =>
          rw [List.pairwise_cons] at hl
          intro x hx y hy hxy
          rcases List.mem_cons.1 hx with hxa | hx <;> rcases List.mem_cons.1 hy with hya | hy
          · exact absurd (hxa.trans hya.symm) hxy
          · rw [hxa]; exact hl.1 y hy
          · rw [hya]; exact (hl.1 x hx).symm
          · exact ihl hl.2 x hx y hy hxy
      exact this rs hpw i hi j hj hij hb

theorem inv_once {env : Env} {s : Session} (hr : ReachableOnce env s) : Inv s := by
  induction hr with
  | start => exact ⟨wf_empty, by simp [Session.start], by simp [Session.start]⟩
  | step c hr0 hc hon ih =>
    rename_i s
    by_cases hip : c.isInPlace = true
    · cases c with
      | inPlace f i =>
        have hch := inPlace_changes ih.wf f i
        have hheap := session_heap env s (.inPlace f i)
        rw [inPlace_step] at hheap
        have hheld : ∀ x, x ∈ (s.step env (.inPlace f i)).held ↔ x ∈ s.held := by
          intro x
          unfold Session.step
          rw [HCall.step, map_run]
          rcases f.run i s.heap with ⟨h, _ | _⟩ <;> simp [Except.map]
        have hgiv : (s.step env (.inPlace f i)).given = s.given := by
          unfold Session.step
          rw [HCall.step, map_run]
          rcases f.run i s.heap with ⟨h, _ | _⟩ <;> simp [Except.map, HCall.gives]
        refine ⟨by rw [hheap]; exact hch.wf, ?_, ?_⟩
        · intro x hx
          rw [hheap, hch.len]
          exact ih.lt x ((hheld x).1 hx)
        · intro x hx y hy hxy hb
          rw [hheap] at hb ⊢
          rw [hgiv, hch.raws x, hch.raws y]
          have hx' := (hheld x).1 hx
          have hy' := (hheld y).1 hy
          have old : ∀ z, z ≠ i → (f.run i s.heap).1.bufOf z = s.heap.bufOf z := by
            intro z hz
            unfold Heap.bufOf
            rw [hch.others z hz]
          have small : ∀ z ∈ s.held, ∀ b, s.heap.bufs.length ≤ b → s.heap.bufOf z ≠ some b := by
            intro z hz b hb hc
            have := buf_lt ih.wf hc
            omega
          rcases hch.own with ho | ⟨b, hb', ho⟩
          · have all : ∀ z, (f.run i s.heap).1.bufOf z = s.heap.bufOf z := by
              intro z
              by_cases hz : z = i
              · rw [hz]; exact ho
              · exact old z hz
            rw [all x, all y] at hb
            exact ih.sep x hx' y hy' hxy hb
          · by_cases hxi : x = i
            · have hyi : y ≠ i := fun h => hxy (hxi.trans h.symm)
              rw [hxi, ho, old y hyi] at hb
              exact absurd hb.symm (small y hy' b hb')
            · by_cases hyi : y = i
              · rw [hyi, ho, old x hxi] at hb
                exact absurd hb (small x hx' b hb')
              · rw [old x hxi, old y hyi] at hb
                exact ih.sep x hx' y hy' hxy hb
      | _ => simp [HCall.isInPlace] at hip
    · have hip' : c.isInPlace = false := by simpa using hip
      obtain ⟨hw', he'⟩ := step_frame env ih.wf c hip'
      rcases hst : c.step env s.heap with ⟨h', e | rs⟩
      · rw [hst] at hw' he'
        have : s.step env c = ⟨h', s.held ++ [], s.given ++ c.gives⟩ := by
          unfold Session.step; rw [hst]; simp
        rw [this]
        exact inv_extend (h := s.heap) ih hw' he' (by simp) (by simp) _
      · rw [hst] at hw' he'
        have hstep : s.step env c = ⟨h', s.held ++ rs, s.given ++ c.gives⟩ := by
          unfold Session.step; rw [hst]
        rw [hstep]
        by_cases hg : c.gives = []
        · rcases step_results env ih.wf c hip' hg hst with ⟨i, hargs, rfl, rfl, _⟩ | ⟨hn, hp⟩
          · -- the argument itself
            have hi : i ∈ s.held := hc i (by rw [hargs]; simp)
            have hmem : ∀ x, x ∈ s.held ++ [i] → x ∈ s.held := by
              intro x hx
              rcases List.mem_append.1 hx with hx | hx
              · exact hx
              · rw [List.mem_singleton] at hx; rw [hx]; exact hi
            refine ⟨hw', fun x hx => ih.lt x (hmem x hx), fun x hx y hy hxy hb => ?_⟩
            rw [hg, List.append_nil]
            exact ih.sep x (hmem x hx) y (hmem y hy) hxy hb
          · exact inv_extend (h := s.heap) ih hw' he' hn hp _
        · cases c with
          | wrap ty i =>
            rw [HCall.step, map_run] at hst
            rcases hx : HM.wrap ty i s.heap with ⟨h1, e | k⟩
            · rw [hx] at hst; simp [Except.map] at hst
            · rw [hx] at hst
              simp only [Except.map, Prod.mk.injEq, Except.ok.injEq] at hst
              obtain ⟨rfl, rfl⟩ := hst
              obtain ⟨rfl, o, t, ho, hv, hty, hcase⟩ := wrap_cases hx
              have hi : i ∈ s.held := hc i (by simp [HCall.args])
              rcases hcase with ⟨hsame, rfl⟩ | ⟨_, t', _, rfl⟩
              · -- an array given to a constructor of its own class for the first time
                obtain ⟨t2, hv2, hor⟩ := hon ty i rfl
                rw [hv] at hv2
                obtain rfl := Option.some.inj hv2
                rcases hor with hne | ⟨hraw, hgiv⟩
                · exact absurd (hty.trans hsame) hne
                · have hbi : s.heap.bufOf i = some o.buf := by unfold Heap.bufOf; rw [ho]; rfl
                  have hri : s.heap.rawOf i = some true := by
                    obtain ⟨b, hb, _⟩ := ih.wf o (List.mem_of_getElem? ho)
                    unfold Heap.rawOf
                    rw [ho]
                    cases hr : o.raw with
                    | true => simp [hr]
                    | false => rw [matrix_of ho hr hb] at hraw; simp at hraw
                  have hbk : (s.heap.pushShared o).bufOf s.heap.objs.length = some o.buf := by
                    simp [Heap.bufOf, Heap.pushShared]
                  have key : ∀ j ∈ s.held, s.heap.bufOf j = some o.buf →
                      (s.heap.pushShared o).rawOf j = some true ∧ j ∈ s.given ++ [i] := by
                    intro j hj hb
                    rw [ext_rawOf he' (ih.lt j hj)]
                    by_cases hji : j = i
                    · rw [hji]; exact ⟨hri, by simp⟩
                    · rcases ih.sep j hj i hi hji (hb.trans hbi.symm) with h1 | h1
                      · exact ⟨h1.1, List.mem_append_left _ h1.2⟩
                      · exact absurd h1.2 hgiv
                  refine ⟨hw', ?_, ?_⟩
                  · intro x hx
                    rcases List.mem_append.1 hx with hx | hx
                    · exact lt_of_lt_of_le (ih.lt x hx) he'.objs_lt
                    · rw [List.mem_singleton] at hx
                      subst hx
                      simp [Heap.pushShared]
                  · intro x hx y hy hxy hb
                    simp only [HCall.gives] at hb ⊢
                    rcases List.mem_append.1 hx with hx | hx <;> rcases List.mem_append.1 hy with hy | hy
                    · rw [ext_bufOf he' (ih.lt x hx), ext_bufOf he' (ih.lt y hy)] at hb
                      rw [ext_rawOf he' (ih.lt x hx), ext_rawOf he' (ih.lt y hy)]
                      rcases ih.sep x hx y hy hxy hb with h1 | h1
                      · exact Or.inl ⟨h1.1, List.mem_append_left _ h1.2⟩
                      · exact Or.inr ⟨h1.1, List.mem_append_left _ h1.2⟩
                    · rw [List.mem_singleton] at hy
                      subst hy
                      rw [ext_bufOf he' (ih.lt x hx), hbk] at hb
                      exact Or.inl (key x hx hb)
                    · rw [List.mem_singleton] at hx
                      subst hx
                      rw [ext_bufOf he' (ih.lt y hy), hbk] at hb
                      exact Or.inr (key y hy hb.symm)
                    · rw [List.mem_singleton] at hx hy
                      exact absurd (hx.trans hy.symm) hxy
              · refine inv_extend (h := s.heap) ih hw' he' ?_ (by simp) _
                intro r hr
                rw [List.mem_singleton] at hr
                subst hr
                exact ⟨le_refl _, s.heap.bufs.length, by simp [Heap.bufOf, Heap.push], le_refl _⟩
          | _ => simp [HCall.gives] at hg

end
end Dissect
