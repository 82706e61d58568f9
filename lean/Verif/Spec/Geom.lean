import Verif.Model.Geom
import Mathlib.Data.Sym.Card

/-!
Specification for C48 and C49.
-/

namespace Verif

/-- the number of unordered selections with repetition of `k` out of `n` things -/
def unorderedTuples (n k : Nat) : Nat := Fintype.card (Sym (Fin n) k)

/-- squared distance of two points -/
def dist2 (u v : Nat → ℝ) : ℝ := (u 0 - v 0) ^ 2 + (u 1 - v 1) ^ 2 + (u 2 - v 2) ^ 2

/-- the components of a vector along the three columns of `axes` -/
noncomputable def components (axes : Nat → Nat → ℝ) (v : Nat → ℝ) (c : Nat) : ℝ :=
  axes 0 c * v 0 + axes 1 c * v 1 + axes 2 c * v 2

/-- an actual plane: two different axes -/
def Plane.Proper (p : Plane) : Prop := p.a ≠ p.b

/-- The point group's main axis is the z axis: the principal axis of the group is z, planes through it are
given as such, and horizontal planes do not contain it. -/
def PointGroup.MainAxisZ : PointGroup → Prop
  | .c2h axis => axis = .z
  | .c3 axis => axis = .z
  | .c2v axis planes => axis = .z ∧ ∀ p ∈ planes, p.Proper
  | .c3v axis plane => axis = .z ∧ plane.Proper
  | .c5v _ plane => plane.a ≠ .z ∧ plane.b ≠ .z
  | .c6h _ sh => sh.a ≠ .z ∧ sh.b ≠ .z
  | .d2h axes planes => axes[2]? = some .z ∧ ∀ p ∈ planes, p.Proper
  | .d3h ax sv => ax = .z ∧ sv.Proper
  | .d5h ax sv => ax = .z ∧ sv.Proper
  | .other => True

end Verif
