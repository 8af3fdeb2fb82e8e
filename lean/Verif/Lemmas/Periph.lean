import Verif.Props.Svd
import Verif.Props.SpaceApply
import Verif.Lemmas.Project

/-! # Lemmas about projecting the operations of a core space -/

namespace Dissect
open Finset
variable {κ : Type} [DecidableEq κ]

/-! ### Composition of row maps along a list of operations -/

omit [DecidableEq κ] in
theorem opsMap_append (ops : List (Op κ)) (op : Op κ) (t : MTy) (n : ℕ) :
    (opsMap (ops ++ [op])).ty t = op.rowMap.ty ((opsMap ops).ty t) ∧
    (opsMap (ops ++ [op])).width n = op.rowMap.width ((opsMap ops).width n) ∧
    ((opsMap (ops ++ [op])).ok t n ↔ (opsMap ops).ok t n ∧ op.rowMap.ok ((opsMap ops).ty t) ((opsMap ops).width n)) := by
  induction ops generalizing t n with
  | nil => simp [opsMap, RowMap.comp, RowMap.id]
  | cons o ops ih =>
    obtain ⟨h1, h2, h3⟩ := ih (o.rowMap.ty t) (o.rowMap.width n)
    refine ⟨h1, h2, ?_⟩
    simp only [List.cons_append, opsMap, RowMap.comp]
    rw [h3, and_assoc]

/-- The column labels reached by a projection either do not depend on the start or are the start. -/
def ColsFixed (ops : List (Op κ)) (c : List κ) (d : Dict κ ℤ) : Prop :=
  (∀ start, allCols ops start = .ok (c, d)) ∨ (∀ start, allCols ops start = .ok start)

theorem ColsFixed.self {ops : List (Op κ)} {c : List κ} {d : Dict κ ℤ} (h : ColsFixed ops c d) :
    allCols ops (c, d) = .ok (c, d) := by
  rcases h with h | h <;> exact h _

theorem ColsFixed.step {ops : List (Op κ)} {c c' : List κ} {d d' : Dict κ ℤ} (h : ColsFixed ops c d) {op : Op κ}
    (hs : stepCols op (c, d) = .ok (c', d')) : ColsFixed (ops ++ [op]) c' d' := by
  cases op with
  | scaling t u =>
    simp only [stepCols] at hs
    have hs' := ok_inj hs
    simp only [Prod.mk.injEq] at hs'
    obtain ⟨rfl, rfl⟩ := hs'
    rcases h with h | h
    · exact Or.inl (fun st => by rw [allCols_append, h]; rfl)
    · exact Or.inr (fun st => by rw [allCols_append, h]; rfl)
  | dimred t u =>
    left
    intro st
    rw [allCols_append]
    have : ∃ x, allCols ops st = .ok x := by rcases h with h | h <;> exact ⟨_, h _⟩
    obtain ⟨x, hx⟩ := this
    rw [hx]
    exact hs
  | featsel k cr sel orig =>
    left
    intro st
    rw [allCols_append]
    have : ∃ x, allCols ops st = .ok x := by rcases h with h | h <;> exact ⟨_, h _⟩
    obtain ⟨x, hx⟩ := this
    rw [hx]
    exact hs

/-! ### Induction over `applyAll` -/

theorem applyAll_append (env : Env) (ts : List Trans) (t : Trans) (s : Space κ) :
    s.applyAll env (ts ++ [t]) = s.applyAll env ts >>= (fun s' => s'.apply env t) := by
  induction ts generalizing s with
  | nil =>
    simp only [List.nil_append, Space.applyAll, ok_bind]
    cases s.apply env t <;> rfl
  | cons a ts ih =>
    simp only [List.cons_append, Space.applyAll]
    cases s.apply env a with
    | error e => rfl
    | ok s' => simp only [ok_bind, ih]

theorem applyAll_rows {env : Env} {ts : List Trans} : ∀ {s s' : Space κ}, s.applyAll env ts = .ok s' →
    s'.id2row = s.id2row ∧ s'.row2id = s.row2id ∧ (s.WF → s'.WF) := by
  induction ts with
  | nil =>
    intro s s' h
    obtain rfl := ok_inj h
    exact ⟨rfl, rfl, id⟩
  | cons t ts ih =>
    intro s s' h
    simp only [Space.applyAll, bind_eq_ok] at h
    obtain ⟨s1, h1, h2⟩ := h
    obtain ⟨op, m, _, op', _, _, h3, h4, _, hwf, _⟩ := apply_eq_ok h1
    obtain ⟨e1, e2, e3⟩ := ih h2
    exact ⟨e1.trans h3, e2.trans h4, fun _ => e3 hwf⟩

theorem applyAll_cols {env : Env} {raw : Space κ} (hraw : raw.ops = []) {ts : List Trans} {core : Space κ}
    (h : raw.applyAll env ts = .ok core) : ColsFixed core.ops core.id2col core.col2id := by
  induction ts using List.reverseRecOn generalizing core with
  | nil =>
    obtain rfl := ok_inj h
    rw [hraw]
    exact Or.inr (fun _ => rfl)
  | append_singleton ts t ih =>
    rw [applyAll_append, bind_eq_ok] at h
    obtain ⟨s, h1, h2⟩ := h
    obtain ⟨op, m, _, op', ho, _, _, _, _, _, _, hc, _⟩ := apply_eq_ok h2
    rw [ho]
    exact (ih h1).step hc

/-- Result of building a peripheral space, in terms of the separate column and matrix parts. -/
theorem periphNew_eq_ok {core : Space κ} {m : TMat ℝ} {ws : List κ} {d : Option (Dict κ ℤ)} {p : Space κ}
    (h : Periph.new core m ws d = .ok p) :
    projAll core.ops m = .ok p.mat ∧ allCols core.ops (core.id2col, core.col2id) = .ok (p.id2col, p.col2id) ∧
    p.id2row = ws ∧ p.ops = core.ops ∧ p.elemShape = [p.mat.nc] ∧ Space.resolveMap ws d = .ok p.row2id ∧
    Space.shapeCheck p.mat p.id2row p.id2col p.row2id p.col2id = .ok () := by
  simp only [Periph.new, bind_eq_ok] at h
  obtain ⟨r, hr, h⟩ := h
  rcases hpo : Periph.projectOps core.id2col core.col2id m core.ops with ⟨⟨c, cd⟩, out⟩
  rw [hpo] at h
  simp only [bind_eq_ok, pure_eq_ok] at h
  obtain ⟨m', hm, u, hs, h⟩ := h
  obtain rfl := ok_inj h
  have := (projectOps_spec core.ops core.id2col core.col2id m).1 m' (by rw [hpo]; exact hm)
  rw [hpo] at this
  exact ⟨this.1, this.2, rfl, rfl, rfl, hr, hs⟩

theorem periphNew_ok {core : Space κ} {m m' : TMat ℝ} {ws : List κ} {d : Option (Dict κ ℤ)} {r cd : Dict κ ℤ}
    {c : List κ} (h1 : projAll core.ops m = .ok m') (h2 : allCols core.ops (core.id2col, core.col2id) = .ok (c, cd))
    (h3 : Space.resolveMap ws d = .ok r) (h4 : Space.shapeCheck m' ws c r cd = .ok ()) :
    Periph.new core m ws d = .ok ⟨m', ws, c, r, cd, core.ops, [m'.nc]⟩ := by
  have := (projectOps_spec core.ops core.id2col core.col2id m).2 m' _ h1 h2
  simp only [Periph.new, h3, ok_bind, this, h4]
  rfl

end Dissect
