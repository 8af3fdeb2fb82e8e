import Verif.Model.Heap

/-! # Histories of matrix calls: what a program holds, and when arrays are given away twice -/

namespace Dissect
noncomputable section

/-- A running program: the heap, the objects it holds (everything its calls have returned), and the numpy or csr arrays
it has already given to a constructor. -/
structure Session where
  heap : Heap
  held : List ℕ
  given : List ℕ

/-- The beginning: nothing. -/
def Session.start : Session := ⟨Heap.empty, [], []⟩

/-- The objects a call is given. -/
def HCall.args : HCall → List ℕ
  | .array _ => []
  | .wrap _ i => [i]
  | .call1 _ i => [i]
  | .call2 _ i j => [i, j]
  | .inPlace _ i => [i]
  | .scaling _ i _ => [i]
  | .select _ _ i => [i]
  | .reduce _ i => [i]
  | .project _ i tm => [i, tm]
  | .linSim i j => [i, j]
  | .lexOne _ fs arg _ _ _ => [fs, arg]

/-- The objects given to a constructor by a call. -/
def HCall.gives : HCall → List ℕ
  | .wrap _ i => [i]
  | _ => []

/-- Is it one of the four methods documented to change a matrix? -/
def HCall.isInPlace : HCall → Bool
  | .inPlace _ _ => true
  | _ => false

/-- One call; after an exception the program goes on with what it held before. -/
def Session.step (env : Env) (s : Session) (c : HCall) : Session :=
  match c.step env s.heap with
  | (h, .ok rs) => ⟨h, s.held ++ rs, s.given ++ c.gives⟩
  | (h, .error _) => ⟨h, s.held, s.given ++ c.gives⟩

/-- What a program can reach: any calls, with arguments it holds. -/
inductive Reachable (env : Env) : Session → Prop
  | start : Reachable env Session.start
  | step {s : Session} (c : HCall) (hr : Reachable env s) (hc : ∀ i ∈ c.args, i ∈ s.held) : Reachable env (s.step env c)

/-- Constructors are given a matrix of the other class, or an array that is not a `Matrix` and was not given to a
constructor before. -/
def Session.Once (s : Session) (c : HCall) : Prop :=
  ∀ ty i, c = .wrap ty i → ∃ t, s.heap.view i = some t ∧ (t.ty ≠ ty ∨ (s.heap.matrix i = none ∧ i ∉ s.given))

/-- Histories in which constructors are used that way. -/
inductive ReachableOnce (env : Env) : Session → Prop
  | start : ReachableOnce env Session.start
  | step {s : Session} (c : HCall) (hr : ReachableOnce env s) (hc : ∀ i ∈ c.args, i ∈ s.held) (ho : s.Once c) :
      ReachableOnce env (s.step env c)

/-- A program that should compute the matrix `v`: the object it returns stands for that matrix, or it raises the same
exception. -/
def Computes (p : HM ℕ) (h : Heap) (v : Py (TMat ℝ)) : Prop :=
  match v with
  | .ok r => ∃ h' k, p h = (h', .ok k) ∧ h'.matrix k = some r
  | .error e => ∃ h', p h = (h', .error e)

/-- A sequence of in-place calls on objects that satisfy `P`. -/
def InPlaceOn (P : ℕ → Prop) (cs : List HCall) : Prop := ∀ c ∈ cs, ∃ f i, c = .inPlace f i ∧ P i

end
end Dissect
