import Mathlib.Algebra.MvPolynomial.PDeriv
import Mathlib.RingTheory.Polynomial.Hermite.Basic
import Mathlib.Analysis.Real.Sqrt

/-!
# The vibrational Schrödinger equation and its second-order perturbation theory

`N` normal coordinates `q_i`, made dimensionless, frequencies `w`, force constants `φ` and `ψ` in the same unit. A
wave function is a polynomial in the coordinates times `exp (-½ Σ q_i²)`; it is represented by the polynomial. The
Hamiltonian is `H₀ + ε H₁ + ε² H₂`, and an energy of it is a formal power series in `ε`.
Nothing here refers to the model.
-/

namespace Verif.Osc

open MvPolynomial

/-- Wave functions `p exp (-½ Σ q_i²)`, represented by `p`. -/
abbrev Wave (N : Nat) := MvPolynomial (Fin N) ℝ

variable {N : Nat}

/-- The coordinate `q_i` times a wave function. -/
noncomputable def coord (i : Fin N) (p : Wave N) : Wave N := X i * p

/-- The derivative `∂/∂q_i` of a wave function: `∂(p e^(-q²/2)) = (∂p - q p) e^(-q²/2)`. -/
noncomputable def slope (i : Fin N) (p : Wave N) : Wave N := pderiv i p - X i * p

/-- The harmonic Hamiltonian `½ Σ w_i (q_i² - ∂²/∂q_i²)`. -/
noncomputable def harmonic (w : Nat → ℝ) (p : Wave N) : Wave N :=
  ∑ i : Fin N, (w i / 2) • (coord i (coord i p) - slope i (slope i p))

/-- The cubic potential `1/6 Σ φ_ijk q_i q_j q_k`. -/
noncomputable def cubic (φ : Nat → Nat → Nat → ℝ) (p : Wave N) : Wave N :=
  (1 / 6 : ℝ) • ∑ i : Fin N, ∑ j : Fin N, ∑ k : Fin N, φ i j k • coord i (coord j (coord k p))

/-- The quartic potential `1/24 Σ φ_ijkl q_i q_j q_k q_l`. -/
noncomputable def quartic (ψ : Nat → Nat → Nat → Nat → ℝ) (p : Wave N) : Wave N :=
  (1 / 24 : ℝ) • ∑ i : Fin N, ∑ j : Fin N, ∑ k : Fin N, ∑ l : Fin N, ψ i j k l • coord i (coord j (coord k (coord l p)))

/-- The vibrational angular momentum about axis `a`, up to a factor `-i`: `Σ ζ_kl (w_l / w_k)^½ q_k ∂/∂q_l`. -/
noncomputable def angular (w : Nat → ℝ) (ζ : Nat → Nat → Nat → ℝ) (a : Nat) (p : Wave N) : Wave N :=
  ∑ k : Fin N, ∑ l : Fin N, (ζ k l a * Real.sqrt (w l / w k)) • coord k (slope l p)

/-- The rotational energy of the vibrational angular momentum, `Σ_a B_a π_a²`. -/
noncomputable def coriolis (w : Nat → ℝ) (ζ : Nat → Nat → Nat → ℝ) (B : Nat → ℝ) (p : Wave N) : Wave N :=
  -∑ a ∈ Finset.range 3, B a • angular w ζ a (angular w ζ a p)

/-- The harmonic-oscillator state with `n_i` quanta in mode `i`: the product of Hermite polynomials. -/
noncomputable def oscState (n : Fin N → Nat) : Wave N :=
  ∏ i, Polynomial.aeval (C (Real.sqrt 2) * X i : Wave N) (Polynomial.hermite (n i))

/-- `E₀ + ε E₁ + ε² E₂` is, to second order in `ε`, an energy of `H₀ + ε H₁ + ε² H₂`, with a wave function which for
`ε = 0` is `p₀`. -/
def SecondOrder (H0 H1 H2 : Wave N → Wave N) (p0 : Wave N) (E0 E1 E2 : ℝ) : Prop :=
  ∃ p1 p2 : Wave N, H0 p0 = E0 • p0 ∧ H0 p1 + H1 p0 = E0 • p1 + E1 • p0 ∧
    H0 p2 + H1 p1 + H2 p0 = E0 • p2 + E1 • p1 + E2 • p0

/-- The energies of the vibrations of a molecule: frequencies `w`, cubic and quartic constants `φ` and `ψ`, Coriolis
constants `ζ`, rotational constants `B`; the state has `n_i` quanta in mode `i`. -/
def VibEnergy (w : Nat → ℝ) (φ : Nat → Nat → Nat → ℝ) (ψ : Nat → Nat → Nat → Nat → ℝ) (ζ : Nat → Nat → Nat → ℝ)
    (B : Nat → ℝ) (n : Fin N → Nat) (E0 E1 E2 : ℝ) : Prop :=
  SecondOrder (harmonic w) (cubic φ) (fun p => quartic ψ p + coriolis w ζ B p) (oscState n) E0 E1 E2

/-- No sum or difference of three frequencies vanishes. -/
def NoResonance (N : Nat) (w : Nat → ℝ) : Prop :=
  ∀ i j k, i < N → j < N → k < N → w i + w j + w k ≠ 0 ∧ w i + w j - w k ≠ 0

end Verif.Osc
