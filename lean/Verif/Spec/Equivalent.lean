import Verif.Spec.Rotate
import Mathlib.Analysis.Real.Sqrt

/-!
# Symmetry operations of a molecule

An operation is given by the matrix `M` which it applies to vectors and by the atom `π a` that it brings to the place of
atom `a`. Places and displacements are given along the principal axes; the force constants along the axes of the input.
Nothing here refers to the model.
-/

namespace Verif

open Finset

/-- The displacements `u` brought along by the operation. -/
noncomputable def brought (π : Nat → Nat) (M : Nat → Nat → ℝ) (u : Nat → ℝ) : Nat → ℝ :=
  fun r => ∑ d ∈ range 3, M (r % 3) d * u (3 * π (r / 3) + d)

/-- The operation brings every atom to the place of an atom of the same mass, and displacements brought along by it meet the
same force constants of second, third and fourth order. -/
structure SymmetryOf (natom : Nat) (pos : Nat → Nat → ℝ) (mass : Nat → ℝ) (axes f2 : Nat → Nat → ℝ)
    (f3 : Nat → Nat → Nat → ℝ) (f4 : Nat → Nat → Nat → Nat → ℝ) (π : Nat → Nat) (M : Nat → Nat → ℝ) : Prop where
  atom : ∀ a < natom, π a < natom
  place : ∀ a < natom, ∀ c < 3, pos a c = ∑ d ∈ range 3, M c d * pos (π a) d
  mass : ∀ a < natom, mass (π a) = mass a
  second : ∀ u v, form2 (3 * natom) f2 (applyAxes axes (brought π M u)) (applyAxes axes (brought π M v)) =
    form2 (3 * natom) f2 (applyAxes axes u) (applyAxes axes v)
  third : ∀ u v t, form3 (3 * natom) f3 (applyAxes axes (brought π M u)) (applyAxes axes (brought π M v))
    (applyAxes axes (brought π M t)) = form3 (3 * natom) f3 (applyAxes axes u) (applyAxes axes v) (applyAxes axes t)
  fourth : ∀ u v t r, form4 (3 * natom) f4 (applyAxes axes (brought π M u)) (applyAxes axes (brought π M v))
    (applyAxes axes (brought π M t)) (applyAxes axes (brought π M r)) =
      form4 (3 * natom) f4 (applyAxes axes u) (applyAxes axes v) (applyAxes axes t) (applyAxes axes r)

/-- A third of a turn about axis 2. -/
noncomputable def thirdTurn (c d : Nat) : ℝ :=
  if c = 2 ∨ d = 2 then (if c = d then 1 else 0)
  else if c = d then -1 / 2 else if c = 0 then -(Real.sqrt 3 / 2) else Real.sqrt 3 / 2

/-- For `e = 1` the reflection which reverses axis 1, for `e = -1` the half-turn about axis 0. -/
def flipAxes (e : ℝ) (c d : Nat) : ℝ :=
  if c = d then (if c = 0 then 1 else if c = 1 then -1 else e) else 0

/-- The displacements of the atoms if the molecule is turned a little in the plane of the axes `p` and `q`. -/
def turnedAbout (pos : Nat → Nat → ℝ) (p q r : Nat) : ℝ :=
  if r % 3 = q then pos (r / 3) p else if r % 3 = p then -pos (r / 3) q else 0

end Verif
