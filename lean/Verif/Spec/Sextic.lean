import Mathlib.Algebra.MvPolynomial.PDeriv
import Mathlib.Algebra.MvPolynomial.Expand
import Mathlib.RingTheory.MvPolynomial.Homogeneous
import Mathlib.Data.Real.Basic
import Mathlib.Analysis.SpecialFunctions.Pow.Real

/-!
# Rotational Hamiltonians and their transformations

A rotational Hamiltonian is a polynomial in the three components of the angular momentum. The constants
reported by the program are coefficients of such polynomials; which of them are left depends on the
reduction, that is on a canonical transformation applied to the Hamiltonian.
-/

namespace Verif

open MvPolynomial

/-- Polynomials in the three components of the angular momentum. -/
abbrev Poly := MvPolynomial (Fin 3) ℝ

/-- The Poisson bracket of functions of the angular momentum. -/
noncomputable def bracket (f g : Poly) : Poly :=
  X 0 * (pderiv 1 f * pderiv 2 g - pderiv 2 f * pderiv 1 g) +
  X 1 * (pderiv 2 f * pderiv 0 g - pderiv 0 f * pderiv 2 g) +
  X 2 * (pderiv 0 f * pderiv 1 g - pderiv 1 f * pderiv 0 g)

/-- The canonical transformation with the generators `s` and then `t` takes the Hamiltonian with the parts `H2`,
`H4`, `H6` to the one with the parts `H2`, `H4'`, `H6'`, where `s` is of order three and `t` of order five. Higher
orders are left out. -/
def Transforms (s t H2 H4 H6 H4' H6' : Poly) : Prop :=
  H4' = H4 + bracket H2 s ∧
  H6' = H6 + bracket H4 s + C (1 / 2) * bracket (bracket H2 s) s + bracket H2 t

/-- Generators of order `n` that change sign with each of the three components: their product times a function
of the squares. -/
def OrthoGen (n : ℕ) (s : Poly) : Prop := s.IsHomogeneous n ∧ ∃ p, s = X 0 * X 1 * X 2 * expand 2 p

/-- Generators of order `n` that are sums of one component times a function of the squares. -/
def SkewGen (n : ℕ) (s : Poly) : Prop := s.IsHomogeneous n ∧ ∃ p : Fin 3 → Poly, s = ∑ i, X i * expand 2 (p i)

/-- The rigid rotor with the constants `B`. -/
noncomputable def rotorH (B : ℕ → ℝ) : Poly := ∑ i : Fin 3, C (B i) * X i ^ 2

/-- A quartic in the squares of the components. -/
noncomputable def quarticH (t : ℕ → ℕ → ℝ) : Poly := ∑ i : Fin 3, ∑ j : Fin 3, C (t i j) * (X i ^ 2 * X j ^ 2)

/-- A sextic in the squares of the components: `Φ(ααα)` is the coefficient of the sixth power, `Φ(ααβ)` and
`Φ(xyz)` are half the coefficient, because the operators are written in two orders. -/
noncomputable def sexticH (φ : ℕ → ℕ → ℕ → ℝ) : Poly :=
  (∑ i : Fin 3, C (φ i i i) * X i ^ 6) +
  (∑ i : Fin 3, ∑ j : Fin 3, if i = j then 0 else C (2 * φ j i i) * (X i ^ 4 * X j ^ 2)) +
  C (2 * φ 0 1 2) * (X 0 ^ 2 * X 1 ^ 2 * X 2 ^ 2)

/-- What the rotational Hamiltonian is made of: the number of modes, rotational constants, principal moments,
frequencies, derivatives of the inertia tensor along the modes, Coriolis couplings and cubic force constants. -/
structure RotorData where
  nvib : ℕ
  B : ℕ → ℝ
  I : ℕ → ℝ
  ω : ℕ → ℝ
  a : ℕ → ℕ → ℕ → ℝ
  ζ : ℕ → ℕ → ℕ → ℝ
  k : ℕ → ℕ → ℕ → ℝ

/-- The constants `τ(αβγδ)`. -/
noncomputable def RotorData.τ (D : RotorData) (i j k l : ℕ) : ℝ :=
  -(38333.84078 / 2) * ∑ v ∈ Finset.range D.nvib,
    D.a v i j * D.a v k l / (D.ω v ^ 2 * (D.I i * D.I j * D.I k * D.I l))

/-- The quartic part of the Hamiltonian. -/
noncomputable def RotorData.H4 (D : RotorData) : Poly :=
  C (1 / 4) * ∑ i : Fin 3, ∑ j : Fin 3, ∑ k : Fin 3, ∑ l : Fin 3, C (D.τ i j k l) * (X i * X j * X k * X l)

/-- The displacement of mode `v` by rotation. -/
noncomputable def RotorData.shift (D : RotorData) (v : ℕ) : Poly :=
  ∑ i : Fin 3, ∑ j : Fin 3, C (D.a v i j / (2 * D.I i * D.I j * (0.1722212503791076 ^ 2 * D.ω v) ^ (3 / 2 : ℝ))) * (X i * X j)

/-- The Coriolis coupling of the displacements to mode `i`. -/
noncomputable def RotorData.coriolis (D : RotorData) (i : ℕ) : Poly :=
  ∑ j ∈ Finset.range D.nvib, C (D.ω j ^ (3 / 2 : ℝ) * (1 / D.ω j ^ 2 + 2 / D.ω i ^ 2) / √(D.ω i)) *
    (D.shift j * ∑ g : Fin 3, C (D.ζ j i g * D.B g) * X g)

/-- The cubic form of `τ` along the axis `w`. -/
noncomputable def RotorData.torque (D : RotorData) (w : ℕ) : Poly :=
  ∑ i : Fin 3, ∑ j : Fin 3, ∑ k : Fin 3, C (D.τ w i j k) * (X i * X j * X k)

/-- The sextic part of the Hamiltonian: the terms of second order in the expansion of the inverse inertia
tensor, of second order in the Coriolis coupling, and of first order in the cubic force constants. -/
noncomputable def RotorData.H6 (D : RotorData) : Poly :=
  C (3 / 16) * (∑ w : Fin 3, C (1 / D.B w) * D.torque w ^ 2) -
  C 2 * (∑ i ∈ Finset.range D.nvib, C (D.ω i) * D.coriolis i ^ 2) +
  C (1 / 6) * ∑ i ∈ Finset.range D.nvib, ∑ j ∈ Finset.range D.nvib, ∑ k ∈ Finset.range D.nvib,
    C (D.k i j k) * (D.shift i * D.shift j * D.shift k)

/-- The square of the angular momentum. -/
noncomputable def jj : Poly := X 0 ^ 2 + X 1 ^ 2 + X 2 ^ 2

/-- Real part of the second, fourth and sixth power of `x + i y`. -/
noncomputable def re2 (x y : Fin 3) : Poly := X x ^ 2 - X y ^ 2
noncomputable def re4 (x y : Fin 3) : Poly := X x ^ 4 - 6 * X x ^ 2 * X y ^ 2 + X y ^ 4
noncomputable def re6 (x y : Fin 3) : Poly := X x ^ 6 - 15 * X x ^ 4 * X y ^ 2 + 15 * X x ^ 2 * X y ^ 4 - X y ^ 6

/-- The quartic part of Watson's A-reduced Hamiltonian with the axes `x`, `y`, `z`. -/
noncomputable def watsonA4 (x y z : Fin 3) (dJ dJK dK δJ δK : ℝ) : Poly :=
  -(C dJ * jj ^ 2 + C dJK * jj * X z ^ 2 + C dK * X z ^ 4) -
    2 * (C δJ * jj + C δK * X z ^ 2) * re2 x y

/-- The sextic part of Watson's A-reduced Hamiltonian. -/
noncomputable def watsonA6 (x y z : Fin 3) (ΦJ ΦJK ΦKJ ΦK φJ φJK φK : ℝ) : Poly :=
  C ΦJ * jj ^ 3 + C ΦJK * jj ^ 2 * X z ^ 2 + C ΦKJ * jj * X z ^ 4 + C ΦK * X z ^ 6 +
    2 * (C φJ * jj ^ 2 + C φJK * jj * X z ^ 2 + C φK * X z ^ 4) * re2 x y

/-- The quartic part of Watson's S-reduced Hamiltonian. -/
noncomputable def watsonS4 (x y z : Fin 3) (dJ dJK dK d1 d2 : ℝ) : Poly :=
  -(C dJ * jj ^ 2 + C dJK * jj * X z ^ 2 + C dK * X z ^ 4) + 2 * C d1 * jj * re2 x y + 2 * C d2 * re4 x y

/-- The sextic part of Watson's S-reduced Hamiltonian. -/
noncomputable def watsonS6 (x y z : Fin 3) (HJ HJK HKJ HK h1 h2 h3 : ℝ) : Poly :=
  C HJ * jj ^ 3 + C HJK * jj ^ 2 * X z ^ 2 + C HKJ * jj * X z ^ 4 + C HK * X z ^ 6 +
    2 * C h1 * jj ^ 2 * re2 x y + 2 * C h2 * jj * re4 x y + 2 * C h3 * re6 x y

end Verif
