import Verif.Model.Print

/-!
# The listings of states (/repo/spectro/src/state.rs:84-106) and the default input (/repo/spectro/src/lib.rs:344-357)
-/

namespace Verif

/-- `Display for I1states`, /repo/spectro/src/state.rs:88-95: the states one behind the other. -/
def showI1states (v : List (List Nat)) : Option Text := do
  return (← v.mapM fun s => showState (.i1st s)).flatten

/-- One line of `Display for I2states`, `{i}:{state}`, /repo/spectro/src/state.rs:102-104. -/
def i2Line (i : Nat) (s : List (Nat × Nat)) : Option Text := do
  return showNat i ++ ':' :: (← showState (.i2st s)) ++ ['\n']

/-- `Display for I2states`, /repo/spectro/src/state.rs:100-107: a numbered line for each state. -/
def showI2states (v : List (List (Nat × Nat))) : Option Text := do
  return (← v.zipIdx.mapM fun s => i2Line s.2 s.1).flatten

/-- `Spectro::nocurvil`, /repo/spectro/src/lib.rs:344-357, the fields that an input file holds. -/
def Input.nocurvil : Input :=
  { Input.empty with header := [99, 1, 0, 0, 0, 0, 0, 4, 0, 0, 0, 0, 0, 0, 0, 0, 0, 0, 0, 0, 1, 0, 0, 0, 0, 0, 0, 0, 0, 0] }

end Verif
