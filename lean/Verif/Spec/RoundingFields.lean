import Mathlib.Algebra.BigOperators.Intervals
import Mathlib.Analysis.SpecialFunctions.Sqrt

/-!
# Specification for C113 and C115: sizes of the terms of Coriolis constants, derivatives of the inertia tensor, and distortion constants
-/

namespace Verif

open Finset

/-- The terms of component `x` of `Σ_atoms u × v` added up without their signs. -/
noncomputable def angularSize (natom x : Nat) (u v : Nat → ℝ) : ℝ :=
  ∑ i ∈ range natom, (|u (3 * i + (x + 1) % 3)| * |v (3 * i + (x + 2) % 3)| +
    |u (3 * i + (x + 2) % 3)| * |v (3 * i + (x + 1) % 3)|)

/-- The derivative of component `(p, q)`, `p ≤ q`, of the inertia tensor along the mass-weighted displacement `v`, see C62. -/
noncomputable def inertiaDeriv (natom : Nat) (pos : Nat → Nat → ℝ) (mass v : Nat → ℝ) (p q : Nat) : ℝ :=
  if p = q then 2 * ∑ a ∈ range natom, Real.sqrt (mass a) *
    (pos a ((p + 1) % 3) * v (3 * a + (p + 1) % 3) + pos a ((p + 2) % 3) * v (3 * a + (p + 2) % 3))
  else -(2 * ∑ a ∈ range natom, Real.sqrt (mass a) * pos a p * v (3 * a + q))

/-- Its terms added up without their signs. -/
noncomputable def inertiaSize (natom : Nat) (pos : Nat → Nat → ℝ) (mass v : Nat → ℝ) (p q : Nat) : ℝ :=
  if p = q then 2 * ∑ a ∈ range natom, Real.sqrt (mass a) *
    (|pos a ((p + 1) % 3)| * |v (3 * a + (p + 1) % 3)| + |pos a ((p + 2) % 3)| * |v (3 * a + (p + 2) % 3)|)
  else 2 * ∑ a ∈ range natom, Real.sqrt (mass a) * |pos a p| * |v (3 * a + q)|

/-- The distortion constant `τ_ijkl` of `n` modes in units of `K/2`: `-Σ_v A_ij A_kl / (w_v² I_i I_j I_k I_l)`. -/
noncomputable def distortion (n : Nat) (w I : Nat → ℝ) (A : Nat → Nat → Nat → ℝ) (i j k l : Nat) : ℝ :=
  -∑ v ∈ range n, A v i j * A v k l / (w v ^ 2 * (I i * I j * I k * I l))

/-- Its terms added up without their signs. -/
noncomputable def distortionSize (n : Nat) (w I : Nat → ℝ) (A : Nat → Nat → Nat → ℝ) (i j k l : Nat) : ℝ :=
  ∑ v ∈ range n, |A v i j| * |A v k l| / (w v ^ 2 * |I i * I j * I k * I l|)

end Verif
