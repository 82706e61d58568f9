import Verif.Spec.Rotate
import Mathlib.Analysis.SpecialFunctions.Trigonometric.Basic

/-! Specifications for C10–C16 and C62. -/

namespace Verif

open Finset

/-- column `i` of a matrix -/
def colOf {β : Type} (m : Nat → Nat → β) (i : Nat) : Nat → β := fun r => m r i

/-- the columns `0..n-1` of `m` (vectors of `n` numbers) are orthonormal -/
def OrthonormalCols (n : Nat) (m : Nat → Nat → ℝ) : Prop :=
  ∀ i j, i < n → j < n → ∑ r ∈ range n, m r i * m r j = if i = j then 1 else 0

/-- unit conversion of cubic constants: hartree/bohr³ to cm⁻¹ in dimensionless normal coordinates, for
unit frequencies -/
noncomputable def cubicUnit : ℝ :=
  1000000 / ((0.1722212503791076 : ℝ) ^ 3 * 6.626176 * 2.99792458) *
    (4.359813653 / (0.52917706 : ℝ) ^ 3)

/-- unit conversion of quartic constants -/
noncomputable def quarticUnit : ℝ :=
  1000000 / ((0.04 * (Real.pi ^ 2 * 2.99792458) / (6.626176 * 6.022045)) ^ 2 * 6.626176 *
    2.99792458) * (4.359813653 / (0.52917706 : ℝ) ^ 4)

/-- component `x` of the angular-momentum form of an `N`-atom molecule on two displacement vectors:
`Σ_atoms (u × v)_x` -/
noncomputable def angularForm (natom x : Nat) (u v : Nat → ℝ) : ℝ :=
  ∑ i ∈ range natom, (u (3 * i + (x + 1) % 3) * v (3 * i + (x + 2) % 3) -
    u (3 * i + (x + 2) % 3) * v (3 * i + (x + 1) % 3))

/-- component `(p, q)` of the inertia tensor of point masses `m i` at `r i` -/
noncomputable def inertia (natom : Nat) (m : Nat → ℝ) (r : Nat → Nat → ℝ) (p q : Nat) : ℝ :=
  ∑ i ∈ range natom, m i *
    ((if p = q then r i 0 ^ 2 + r i 1 ^ 2 + r i 2 ^ 2 else 0) - r i p * r i q)

/-- the geometry displaced by `t` along the mass-weighted mode vector `l`: `r_i + t l_i / √m_i` -/
noncomputable def displaced (m : Nat → ℝ) (r : Nat → Nat → ℝ) (l : Nat → ℝ) (t : ℝ) :
    Nat → Nat → ℝ :=
  fun i p => r i p + t * (l (3 * i + p) / Real.sqrt (m i))

end Verif
