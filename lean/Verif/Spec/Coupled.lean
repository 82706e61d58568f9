import Verif.Spec.Perturb
import Mathlib.LinearAlgebra.Span.Basic

/-!
# Resonant vibrations: the Hamiltonian without the resonant terms, and the effective Hamiltonian of two states

`R i j k` says that the sum of the frequencies of modes `i` and `j` is close to the frequency of mode `k`.
Nothing here refers to the model.
-/

namespace Verif.Osc

variable {N : Nat}

/-- The operator `a†_i = (q_i - ∂/∂q_i) / √2`, which adds a quantum to mode `i`. -/
noncomputable def raise (i : Fin N) (p : Wave N) : Wave N := (1 / Real.sqrt 2) • (coord i p - slope i p)

/-- The operator `a_i = (q_i + ∂/∂q_i) / √2`, which takes a quantum from mode `i`. -/
noncomputable def lower (i : Fin N) (p : Wave N) : Wave N := (1 / Real.sqrt 2) • (coord i p + slope i p)

open Classical in
/-- The terms of the cubic potential `1/6 Σ φ_ijk q_i q_j q_k` which, for a resonance `R i j k`, turn a quantum of mode `k`
into one of mode `i` and one of mode `j`, or the other way round. With `q = (a + a†) / √2` each of them occurs three times
with the factor `1/6 (1/√2)³`. -/
noncomputable def resonant (R : Nat → Nat → Nat → Prop) (φ : Nat → Nat → Nat → ℝ) (p : Wave N) : Wave N :=
  (1 / 6 * (3 * (1 / Real.sqrt 2) ^ 3)) • ∑ i : Fin N, ∑ j : Fin N, ∑ k : Fin N,
    if R i j k then φ i j k • (raise i (raise j (lower k p)) + lower i (lower j (raise k p))) else 0

/-- The energies of the vibrations of a molecule when the resonant terms are taken out of the cubic potential. -/
def Deperturbed (R : Nat → Nat → Nat → Prop) (w : Nat → ℝ) (φ : Nat → Nat → Nat → ℝ) (ψ : Nat → Nat → Nat → Nat → ℝ)
    (ζ : Nat → Nat → Nat → ℝ) (B : Nat → ℝ) (n : Fin N → Nat) (E0 E1 E2 : ℝ) : Prop :=
  SecondOrder (harmonic w) (fun p => cubic φ p - resonant R φ p) (fun p => quartic ψ p + coriolis w ζ B p) (oscState n)
    E0 E1 E2

/-- The wave functions without a part along the states `a` and `b`. -/
noncomputable def others (a b : Fin N → Nat) : Submodule ℝ (Wave N) := Submodule.span ℝ {p | ∃ m, m ≠ a ∧ m ≠ b ∧ p = oscState m}

/-- `h₀ + ε h₁ + ε² h₂` is, to second order in `ε`, the matrix of the Hamiltonian `H₀ + ε H₁ + ε² H₂` on a plane which it
maps into itself and which for `ε = 0` is spanned by the states `a` and `b`. The plane is spanned by two wave functions
whose parts along `a` and `b` are those of `a` and `b`. -/
def Effective (H0 H1 H2 : Wave N → Wave N) (a b : Fin N → Nat) (h0 h1 h2 : Fin 2 → Fin 2 → ℝ) : Prop :=
  ∃ p1 p2 : Fin 2 → Wave N, (∀ j, p1 j ∈ others a b ∧ p2 j ∈ others a b) ∧
    let p : Fin 2 → Wave N := ![oscState a, oscState b]
    ∀ j, H0 (p j) = ∑ i, h0 i j • p i ∧
      H0 (p1 j) + H1 (p j) = ∑ i, (h0 i j • p1 i + h1 i j • p i) ∧
      H0 (p2 j) + H1 (p1 j) + H2 (p j) = ∑ i, (h0 i j • p2 i + h1 i j • p1 i + h2 i j • p i)

/-- The effective Hamiltonian of two vibrational states of a molecule, of its complete Hamiltonian. -/
def VibEffective (w : Nat → ℝ) (φ : Nat → Nat → Nat → ℝ) (ψ : Nat → Nat → Nat → Nat → ℝ) (ζ : Nat → Nat → Nat → ℝ)
    (B : Nat → ℝ) (a b : Fin N → Nat) (h0 h1 h2 : Fin 2 → Fin 2 → ℝ) : Prop :=
  Effective (harmonic w) (cubic φ) (fun p => quartic ψ p + coriolis w ζ B p) a b h0 h1 h2

/-- `e` is an eigenvalue of the matrix `h`. -/
def IsLevel (h : Fin 2 → Fin 2 → ℝ) (e : ℝ) : Prop := ∃ v : Fin 2 → ℝ, v ≠ 0 ∧ ∀ i, ∑ j, h i j * v j = e * v i

/-- No sum of two frequencies is another frequency, but for the resonances. -/
def OnlyListed (R : Nat → Nat → Nat → Prop) (N : Nat) (w : Nat → ℝ) : Prop :=
  ∀ i j k, i < N → j < N → k < N → ¬ R i j k → w i + w j - w k ≠ 0

/-- The state `(i, j)`, `i = j` allowed, and the state with one quantum in mode `k` resonate with each other, and with
nothing else. -/
def Isolated (R : Nat → Nat → Nat → Prop) (i j k : Nat) : Prop :=
  R i j k ∧ ∀ c d e, R c d e → (e = k → (c = i ∧ d = j) ∨ (c = j ∧ d = i)) ∧ e ≠ i ∧ e ≠ j ∧
    ((c = i ∧ d = j) ∨ (c = j ∧ d = i) → e = k)

/-- No state but `a` and `b` has, for harmonic oscillators, the energy of `a`, and none the energy of `b`. -/
def Alone (N : Nat) (w : Nat → ℝ) (a b : Nat → Nat) : Prop :=
  ∀ m : Nat → Nat, (∃ i < N, m i ≠ a i) → (∃ i < N, m i ≠ b i) →
    ∑ i ∈ Finset.range N, w i * m i ≠ ∑ i ∈ Finset.range N, w i * a i ∧
    ∑ i ∈ Finset.range N, w i * m i ≠ ∑ i ∈ Finset.range N, w i * b i

end Verif.Osc
