import Verif.Spec.Rovib

/-!
# Vibration and rotation of a linear molecule

Watson's Hamiltonian of a linear molecule. The molecular axis is 2; there is no moment of inertia about it, and only the
axes 0 and 1 carry angular momentum. The notation is that of `Verif.Spec.Rovib`. Nothing here refers to the model.
-/

namespace Verif.Osc

open MvPolynomial Finset

variable {N : Nat}

/-- Second-order coefficient of `½ μ_ab` in the dimensionless coordinates `q_k`, `q_l`; the sum is over the two axes. -/
noncomputable def recip2Linear (κ : ℝ) (I w : Nat → ℝ) (A : Nat → Nat → Nat → ℝ) (a b k l : Nat) : ℝ :=
  3 / 4 * κ * (∑ y ∈ range 2, A k a y * A l y b / (I a * I y * I b)) * (Real.sqrt (2 * κ / w k) * Real.sqrt (2 * κ / w l))

/-- The energies of a linear molecule with angular momentum `J` perpendicular to its axis, its vibrational state having
`n_i` quanta in mode `i`. The terms are those of `RotEnergy`, for the axes 0 and 1. -/
def LinearRotEnergy (κ : ℝ) (I : Nat → ℝ) (A : Nat → Nat → Nat → ℝ) (w : Nat → ℝ) (φ : Nat → Nat → Nat → ℝ)
    (ψ : Nat → Nat → Nat → Nat → ℝ) (ζ : Nat → Nat → Nat → ℝ) (J : Nat → ℝ) (n : Fin N → Nat) (E0 E1 E2 : ℝ) : Prop :=
  SecondOrderC (harmonic w)
    (fun p => cubic φ p + linear (fun k => ∑ a ∈ range 2, ∑ b ∈ range 2, recip1 κ I w A a b k * J a * J b) p)
    (fun p => ∑ a ∈ range 2, (2 * (κ / I a) * J a) • angular w ζ a p)
    (fun p => quartic ψ p + (-∑ a ∈ range 2, (κ / I a) • angular w ζ a (angular w ζ a p)) +
      (∑ a ∈ range 2, κ / I a * J a ^ 2) • p +
      quadratic (fun k l => ∑ a ∈ range 2, ∑ b ∈ range 2, recip2Linear κ I w A a b k l * J a * J b) p)
    (fun p => ∑ b ∈ range 2, linear (fun k => 2 * ∑ a ∈ range 2, recip1 κ I w A a b k * J a) (angular w ζ b p))
    (oscState n) E0 E1 E2

/-- `½ μ` is `κ` times the inverse of Watson's tensor of a linear molecule to second order in the coordinates: with `m₁` and
`m₂` its coefficients, `(I + ½ Σ A_k Q_k) (κ I⁻¹ + Σ m₁_k Q_k + Σ m₂_kl Q_k Q_l) (I + ½ Σ A_k Q_k) = κ I` up to terms of
third order, the matrices having the axes 0 and 1 as rows and columns. -/
def WatsonTensorLinear (κ : ℝ) (I : Nat → ℝ) (A m1 : Nat → Nat → Nat → ℝ) (m2 : Nat → Nat → Nat → Nat → ℝ) : Prop :=
  ∀ k l a b, a < 2 → b < 2 →
    1 / 2 * A k a b * (κ / I b) * I b + I a * m1 k a b * I b + I a * (κ / I a) * (1 / 2 * A k a b) = 0 ∧
    (1 / 2 * ∑ y ∈ range 2, A k a y * m1 l y b * I b + 1 / 4 * ∑ y ∈ range 2, A k a y * (κ / I y) * A l y b +
        1 / 2 * ∑ y ∈ range 2, I a * m1 l a y * A k y b + I a * m2 k l a b * I b) +
      (1 / 2 * ∑ y ∈ range 2, A l a y * m1 k y b * I b + 1 / 4 * ∑ y ∈ range 2, A l a y * (κ / I y) * A k y b +
        1 / 2 * ∑ y ∈ range 2, I a * m1 k a y * A l y b + I a * m2 l k a b * I b) = 0

end Verif.Osc
