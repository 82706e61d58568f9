import Verif.Spec.Sextic

/-!
# Symmetric Hamiltonians

The symmetry of a molecule restricts its rotational Hamiltonian.
-/

namespace Verif

open MvPolynomial

/-- The plane `y = 0` is a plane of symmetry. (The angular momentum is an axial vector: the reflection reverses its
components in the plane. Hamiltonians are of even order, so that this is the same as reversing the other one.) -/
def Mirror (H : Poly) : Prop := ∀ x y z : ℝ, eval ![x, -y, z] H = eval ![x, y, z] H

/-- The plane `z = 0` is a plane of symmetry. -/
def MirrorZ (H : Poly) : Prop := ∀ x y z : ℝ, eval ![x, y, -z] H = eval ![x, y, z] H

/-- The rotation by the angle with cosine `c` and sine `s` about the axis `z` is a symmetry. -/
def Turn (c s : ℝ) (H : Poly) : Prop := ∀ x y z : ℝ, eval ![c * x - s * y, s * x + c * y, z] H = eval ![x, y, z] H

end Verif
