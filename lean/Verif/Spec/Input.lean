import Verif.Spec.Training

/-!
# Specification: the input of `build_core_space.py` and `build_peripheral_space.py`

Written from the usage texts (`build_core_space.py:29-60`, `build_peripheral_space.py:26-52`): the option `-i` gives the
prefix of the input files, `<prefix>.<format>` (with `.gz` appended for a gzipped file), `<prefix>.rows` and
`<prefix>.cols`; the column file is required for the format `sm`.
-/

namespace Dissect
noncomputable section

/-- The data file. -/
def dataFile (pre fmt : Str) (gz : Bool) : Str := pre ++ ['.'] ++ fmt ++ if gz then cs!".gz" else []

/-- A label file is used iff it exists. -/
def LabelFile (fs : Fs) (f : Str) (o : Option Str) : Prop :=
  (fs.exists_ f = true ∧ o = some f) ∨ (fs.exists_ f = false ∧ o = none)

/-- `s` is the input space: the pickled one, or the one built from the data and label files. -/
inductive InputSpace (L : Lib) (fs : Fs) (pre : Str) (gz : Bool) : Str → Space Str → Prop
  | pickle {s : Space Str} : HoldsSpace L fs (pre ++ cs!".pkl") s → InputSpace L fs pre gz cs!"pkl" s
  | sparse {s : Space Str} {rows : Option Str} : LabelFile fs (pre ++ cs!".rows") rows →
      fs.exists_ (pre ++ cs!".cols") = true →
      Space.build L.io fs ⟨some (dataFile pre cs!"sm" gz), some cs!"sm", rows, some (pre ++ cs!".cols")⟩ = .ok s →
      InputSpace L fs pre gz cs!"sm" s
  | dense {s : Space Str} {rows cols : Option Str} : LabelFile fs (pre ++ cs!".rows") rows →
      LabelFile fs (pre ++ cs!".cols") cols →
      Space.build L.io fs ⟨some (dataFile pre cs!"dm" gz), some cs!"dm", rows, cols⟩ = .ok s →
      InputSpace L fs pre gz cs!"dm" s

end
end Dissect
