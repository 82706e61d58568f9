import Verif.Spec.Perturb

/-!
# Vibration and rotation together

Watson's Hamiltonian of a molecule in its normal coordinates, `½ Σ μ_ab (J_a - π_a) (J_b - π_b)` plus vibrational energy
plus potential, expanded to second order of perturbation theory. The components `J_a` of the total angular momentum
are numbers (in units of ħ); that they do not commute matters for terms of lower degree in `J` only.
`I` are the principal moments of inertia, `A k a b` the derivatives of the inertia tensor along the mass-weighted normal
coordinates, `κ = ħ² / 2hc` in the units of `I` times the unit of the frequencies: a rotational constant is `κ / I`,
and `Q_k = √(2κ / w_k) q_k`. Nothing here refers to the model.
-/

namespace Verif.Osc

open MvPolynomial Finset

variable {N : Nat}

/-- First-order coefficient of `½ μ_ab` in the dimensionless coordinate `q_k`. -/
noncomputable def recip1 (κ : ℝ) (I w : Nat → ℝ) (A : Nat → Nat → Nat → ℝ) (a b k : Nat) : ℝ :=
  -(κ * A k a b / (I a * I b)) * Real.sqrt (2 * κ / w k)

/-- Second-order coefficient of `½ μ_ab` in the dimensionless coordinates `q_k`, `q_l`. -/
noncomputable def recip2 (κ : ℝ) (I w : Nat → ℝ) (A : Nat → Nat → Nat → ℝ) (a b k l : Nat) : ℝ :=
  3 / 4 * κ * (∑ y ∈ range 3, A k a y * A l y b / (I a * I y * I b)) * (Real.sqrt (2 * κ / w k) * Real.sqrt (2 * κ / w l))

/-- `Σ c_k q_k`. -/
noncomputable def linear (c : Nat → ℝ) (p : Wave N) : Wave N := ∑ k : Fin N, c k • coord k p

/-- `Σ c_kl q_k q_l`. -/
noncomputable def quadratic (c : Nat → Nat → ℝ) (p : Wave N) : Wave N :=
  ∑ k : Fin N, ∑ l : Fin N, c k l • coord k (coord l p)

/-- `E₀ + ε E₁ + ε² E₂` is, to second order in `ε`, an energy of `H₀ + ε (R₁ + i S₁) + ε² (R₂ + i S₂)`, with a complex wave
function (real parts `a`, imaginary parts `b`) which for `ε = 0` is `p₀`. -/
def SecondOrderC (H0 R1 S1 R2 S2 : Wave N → Wave N) (p0 : Wave N) (E0 E1 E2 : ℝ) : Prop :=
  ∃ a1 b1 a2 b2 : Wave N, H0 p0 = E0 • p0 ∧
    H0 a1 + R1 p0 = E0 • a1 + E1 • p0 ∧ H0 b1 + S1 p0 = E0 • b1 ∧
    H0 a2 + (R1 a1 - S1 b1) + R2 p0 = E0 • a2 + E1 • a1 + E2 • p0 ∧
    H0 b2 + (R1 b1 + S1 a1) + S2 p0 = E0 • b2 + E1 • b1

/-- The energies of a molecule with angular momentum `J`, its vibrational state having `n_i` quanta in mode `i`.
First order: the cubic potential, `½ Σ μ_ab J_a J_b` linear in the coordinates, and `-Σ μ_aa J_a π_a` at the equilibrium.
Second order: the quartic potential, `½ Σ μ_aa π_a²`, `½ Σ μ_aa J_a²` at the equilibrium, `½ Σ μ_ab J_a J_b` quadratic
in the coordinates, and `-Σ μ_ab J_a π_b` linear in them. (`π_a` is `-i` times `angular`.) -/
def RotEnergy (κ : ℝ) (I : Nat → ℝ) (A : Nat → Nat → Nat → ℝ) (w : Nat → ℝ) (φ : Nat → Nat → Nat → ℝ)
    (ψ : Nat → Nat → Nat → Nat → ℝ) (ζ : Nat → Nat → Nat → ℝ) (J : Nat → ℝ) (n : Fin N → Nat) (E0 E1 E2 : ℝ) : Prop :=
  SecondOrderC (harmonic w)
    (fun p => cubic φ p + linear (fun k => ∑ a ∈ range 3, ∑ b ∈ range 3, recip1 κ I w A a b k * J a * J b) p)
    (fun p => ∑ a ∈ range 3, (2 * (κ / I a) * J a) • angular w ζ a p)
    (fun p => quartic ψ p + coriolis w ζ (fun a => κ / I a) p + (∑ a ∈ range 3, κ / I a * J a ^ 2) • p +
      quadratic (fun k l => ∑ a ∈ range 3, ∑ b ∈ range 3, recip2 κ I w A a b k l * J a * J b) p)
    (fun p => ∑ b ∈ range 3, linear (fun k => 2 * ∑ a ∈ range 3, recip1 κ I w A a b k * J a) (angular w ζ b p))
    (oscState n) E0 E1 E2

/-- `E₀ + ε E₁ + ε² E₂` is, to second order in `ε`, an energy of `H₀ + ε (R₁ + i S₁) + ε² (R₂ + i S₂)`, with a complex wave
function (real parts `a`, imaginary parts `b`) which for `ε = 0` is `p + i r`. -/
def SecondOrderL (H0 R1 S1 R2 S2 : Wave N → Wave N) (p r : Wave N) (E0 E1 E2 : ℝ) : Prop :=
  ∃ a1 b1 a2 b2 : Wave N, H0 p = E0 • p ∧ H0 r = E0 • r ∧
    H0 a1 + (R1 p - S1 r) = E0 • a1 + E1 • p ∧ H0 b1 + (R1 r + S1 p) = E0 • b1 + E1 • r ∧
    H0 a2 + (R1 a1 - S1 b1) + (R2 p - S2 r) = E0 • a2 + E1 • a1 + E2 • p ∧
    H0 b2 + (R1 b1 + S1 a1) + (R2 r + S2 p) = E0 • b2 + E1 • b1 + E2 • r

/-- The energies of a molecule with angular momentum `J` whose two vibrations with the quanta `n` and `n'` have the same
frequency and rotate: the vibrational state is `|n⟩ + i σ |n'⟩` when the perturbation vanishes. The Hamiltonian is that of
`RotEnergy`. -/
def RotPairEnergy (κ : ℝ) (I : Nat → ℝ) (A : Nat → Nat → Nat → ℝ) (w : Nat → ℝ) (φ : Nat → Nat → Nat → ℝ)
    (ψ : Nat → Nat → Nat → Nat → ℝ) (ζ : Nat → Nat → Nat → ℝ) (J : Nat → ℝ) (n n' : Fin N → Nat) (σ : ℝ)
    (E0 E1 E2 : ℝ) : Prop :=
  SecondOrderL (harmonic w)
    (fun p => cubic φ p + linear (fun k => ∑ a ∈ range 3, ∑ b ∈ range 3, recip1 κ I w A a b k * J a * J b) p)
    (fun p => ∑ a ∈ range 3, (2 * (κ / I a) * J a) • angular w ζ a p)
    (fun p => quartic ψ p + coriolis w ζ (fun a => κ / I a) p + (∑ a ∈ range 3, κ / I a * J a ^ 2) • p +
      quadratic (fun k l => ∑ a ∈ range 3, ∑ b ∈ range 3, recip2 κ I w A a b k l * J a * J b) p)
    (fun p => ∑ b ∈ range 3, linear (fun k => 2 * ∑ a ∈ range 3, recip1 κ I w A a b k * J a) (angular w ζ b p))
    (oscState n) (σ • oscState n') E0 E1 E2

/-- `½ μ` is `κ` times the inverse of `(1 + ½ Σ A_k Q_k I⁻¹) I (1 + ½ Σ I⁻¹ A_k Q_k)`, Watson's reciprocal inertia
tensor, to second order in the coordinates: with `m₁` and `m₂` its coefficients,
`(I + ½ Σ A_k Q_k) (κ I⁻¹ + Σ m₁_k Q_k + Σ m₂_kl Q_k Q_l) (I + ½ Σ A_k Q_k) = κ I` up to terms of third order. -/
def WatsonTensor (κ : ℝ) (I : Nat → ℝ) (A m1 : Nat → Nat → Nat → ℝ) (m2 : Nat → Nat → Nat → Nat → ℝ) : Prop :=
  ∀ k l a b, a < 3 → b < 3 →
    1 / 2 * A k a b * (κ / I b) * I b + I a * m1 k a b * I b + I a * (κ / I a) * (1 / 2 * A k a b) = 0 ∧
    (1 / 2 * ∑ y ∈ range 3, A k a y * m1 l y b * I b + 1 / 4 * ∑ y ∈ range 3, A k a y * (κ / I y) * A l y b +
        1 / 2 * ∑ y ∈ range 3, I a * m1 l a y * A k y b + I a * m2 k l a b * I b) +
      (1 / 2 * ∑ y ∈ range 3, A l a y * m1 k y b * I b + 1 / 4 * ∑ y ∈ range 3, A l a y * (κ / I y) * A k y b +
        1 / 2 * ∑ y ∈ range 3, I a * m1 k a y * A l y b + I a * m2 l k a b * I b) = 0

end Verif.Osc
