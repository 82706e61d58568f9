import Verif.Model.State

/-! Reading aids for statements about modes and states. -/

namespace Verif

/-- The vibrational indices a mode is made of. -/
def Mode.members : Mode → List Nat
  | .i1 i => [i]
  | .i2 i j => [i, j]
  | .i3 i j k => [i, j, k]

/-- The degree of degeneracy of a mode. -/
def Mode.degree (m : Mode) : Nat := m.members.length

/-- The quanta of a state in the mode at position `m.2` of the list of modes of degeneracy `m.1`:
the vibrational quantum number and (for doubly degenerate modes) the angular one. -/
def State.occ (s : State) (m : Nat × Nat) : Nat × Nat :=
  match s, m with
  | .i1st v, (1, p) => (v.getD p 0, 0)
  | .i2st v, (2, p) => v.getD p (0, 0)
  | .i3st v, (3, p) => (v.getD p 0, 0)
  | .i12st a _, (1, p) => (a.getD p 0, 0)
  | .i12st _ b, (2, p) => b.getD p (0, 0)
  | _, _ => (0, 0)

/-- No quantum anywhere. -/
def noQuanta : Nat × Nat → Nat × Nat := fun _ => (0, 0)

/-- The value by which the program marks one quantum in a mode: `1` for non-degenerate and triply
degenerate modes, `(1, 1)` for doubly degenerate ones. -/
def oneQuantum (m : Nat × Nat) : Nat × Nat := if m.1 = 2 then (1, 1) else (1, 0)

/-- One quantum in mode `m`, nothing else. -/
def fundOcc (m : Nat × Nat) : Nat × Nat → Nat × Nat := Function.update noQuanta m (oneQuantum m)

/-- Two quanta in mode `m`, nothing else. -/
def ovrOcc (m : Nat × Nat) : Nat × Nat → Nat × Nat := Function.update noQuanta m (2, 0)

/-- One quantum in each of the modes `m` and `m'`, nothing else. -/
def combOcc (m m' : Nat × Nat) : Nat × Nat → Nat × Nat :=
  Function.update (Function.update noQuanta m (oneQuantum m)) m' (oneQuantum m')

/-- The mode in which index `i` of the mode list sits: its degeneracy and the position among the modes
of that degeneracy. -/
def sitsIn (modes : List Mode) (i : Nat) (m : Nat × Nat) : Prop :=
  ∃ md, ((modes.filter fun x => x.degree = m.1))[m.2]? = some md ∧ i ∈ md.members

end Verif
