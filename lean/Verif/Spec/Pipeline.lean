import Verif.Model.Pipeline

/-!
# Specification: what the options of `build_core_space.py` mean

Written from the usage text of the script (`build_core_space.py:38-72`).
-/

namespace Dissect
noncomputable section

/-- One value per option list: weighting, feature selection, dimensionality reduction, normalization (`none`: the option
is absent). -/
structure Choice where
  w : Option Str
  s : Option Str
  r : Option Str
  n : Option Str

/-- The documented weighting schemes. -/
def weightingTable : List (Str × ScalingT) :=
  [(cs!"ppmi", .ppmi), (cs!"plmi", .plmi), (cs!"epmi", .epmi), (cs!"plog", .plog)]

/-- The documented feature selections. -/
def selectionTable : List (Str × Crit) := [(cs!"top_sum_", .sum), (cs!"top_length_", .length)]

/-- The documented normalizations: rows to length 1, the sum of all elements to 1. -/
def normalizationTable : List (Str × ScalingT) := [(cs!"row", .rowNorm .length), (cs!"all", .norm .sum)]

/-- The transformations a weighting stands for. -/
inductive WMeans : Option Str → List Trans → Prop
  | named {t : Str} {sc : ScalingT} : (t, sc) ∈ weightingTable → WMeans (some t) [.scaling sc]
  | skip {t : Option Str} : (∀ x ∈ weightingTable, t ≠ some x.1) → WMeans t []

/-- The transformations a feature selection stands for. -/
inductive SMeans : Option Str → List Trans → Prop
  | named {p d : Str} {c : Crit} {k : ℕ} : (p, c) ∈ selectionTable → '_' ∉ d → pyInt d = .ok (k : ℤ) → 0 < k →
      SMeans (some (p ++ d)) [.featsel k c]
  | skip {t : Option Str} : (∀ x ∈ selectionTable, ∀ d, '_' ∉ d → t ≠ some (x.1 ++ d)) → SMeans t []

/-- The transformations a reduction stands for; the random choices of NMF are arbitrary. -/
inductive RMeans : Option Str → List Trans → Prop
  | svd {d : Str} {k : ℕ} : '_' ∉ d → pyInt d = .ok (k : ℤ) → 0 < k → RMeans (some (cs!"svd_" ++ d)) [.dimred (.svd k)]
  | nmf {d : Str} {k : ℕ} (ch : Chance) : '_' ∉ d → pyInt d = .ok (k : ℤ) → 0 < k →
      RMeans (some (cs!"nmf_" ++ d)) [.dimred (.nmf k ch)]
  | skip {t : Option Str} : (∀ x ∈ [cs!"svd_", cs!"nmf_"], ∀ d, '_' ∉ d → t ≠ some (x ++ d)) → RMeans t []

/-- The transformations a normalization stands for. -/
inductive NMeans : Option Str → List Trans → Prop
  | named {t : Str} {sc : ScalingT} : (t, sc) ∈ normalizationTable → NMeans (some t) [.scaling sc]
  | skip {t : Option Str} : (∀ x ∈ normalizationTable, t ≠ some x.1) → NMeans t []

/-- `res` is the input space transformed by the four steps in this order. -/
def Choice.Result (env : Env) (input : Space Str) (c : Choice) (res : Space Str) : Prop :=
  ∃ a b d e, WMeans c.w a ∧ SMeans c.s b ∧ RMeans c.r d ∧ NMeans c.n e ∧
    input.applyAll env (a ++ b ++ d ++ e) = .ok res

/-- "No operation": the option is absent, empty or `none`. -/
def NoneLike (t : Option Str) : Prop := t = none ∨ t = some [] ∨ t = some cs!"none"

/-- Every option is either "no operation" or a documented operation. -/
structure Choice.Documented (c : Choice) : Prop where
  w : NoneLike c.w ∨ ∃ a, a ≠ [] ∧ WMeans c.w a
  s : NoneLike c.s ∨ ∃ a, a ≠ [] ∧ SMeans c.s a
  r : NoneLike c.r ∨ ∃ a, a ≠ [] ∧ RMeans c.r a
  n : NoneLike c.n ∨ ∃ a, a ≠ [] ∧ NMeans c.n a

/-- Two option values that are both "no operation" or equal. -/
def SameOpt (t u : Option Str) : Prop := t = u ∨ (NoneLike t ∧ NoneLike u)

/-- Choices that ask for the same operations. -/
def Choice.Same (c d : Choice) : Prop := SameOpt c.w d.w ∧ SameOpt c.s d.s ∧ SameOpt c.r d.r ∧ SameOpt c.n d.n

/-- `.token`, or nothing for "no operation". -/
def dotted (t : Option Str) : Str :=
  match t with
  | none => []
  | some x => if x = [] ∨ x = cs!"none" then [] else '.' :: x

/-- The documented name of the output for an input whose name without directory is `base`. -/
def coreFile (outDir base : Str) (c : Choice) : Str :=
  outDir ++ cs!"/CORE_SS." ++ base ++ dotted c.w ++ dotted c.s ++ dotted c.r ++ dotted c.n

/-- `base` is the last component of the path `p`. -/
def IsBase (p base : Str) : Prop := '/' ∉ base ∧ (p = base ∨ ∃ d, p = d ++ '/' :: base)

/-- The choices made of the four option lists. -/
def choices (ws ss rs ns : List (Option Str)) (c : Choice) : Prop := c.w ∈ ws ∧ c.s ∈ ss ∧ c.r ∈ rs ∧ c.n ∈ ns

/-- The extensions of the files that `save` and `export` write. -/
def outExts : List Str := [cs!"pkl", cs!"dm", cs!"sm", cs!"cols", cs!"rows"]

end
end Dissect
