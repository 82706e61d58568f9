import Verif.Spec.Coupled
import Mathlib.Data.Finsupp.Basic

/-!
# The coupling of two vibrational states by second-order (Van Vleck) perturbation theory

Nothing here refers to the model.
-/

namespace Verif.Osc

variable {N : Nat}

/-- A scalar product of wave functions: coordinates are symmetric operators, derivatives antisymmetric ones
(integration by parts). Only its values up to a common factor matter. -/
structure ScalarProduct (ip : Wave N → Wave N → ℝ) : Prop where
  add : ∀ p q r, ip (p + q) r = ip p r + ip q r
  smul : ∀ (c : ℝ) p r, ip (c • p) r = c * ip p r
  symm : ∀ p r, ip p r = ip r p
  pos : ∀ p, p ≠ 0 → 0 < ip p p
  coord : ∀ i p r, ip (coord i p) r = ip p (coord i r)
  slope : ∀ i p r, ip (slope i p) r = -ip p (slope i r)

/-- The states `a` and `m` differ by a resonance: two quanta, in modes `i` and `j`, of the one against one quantum, in mode
`k`, of the other. -/
def Resonates (R : Nat → Nat → Nat → Prop) (a m : Fin N → Nat) : Prop :=
  ∃ i j k : Fin N, R i j k ∧
    ((∀ v, m v + (if v = k then 1 else 0) = a v + (if v = i then 1 else 0) + if v = j then 1 else 0) ∨
      ∀ v, a v + (if v = k then 1 else 0) = m v + (if v = i then 1 else 0) + if v = j then 1 else 0)

open Classical in
/-- `p` is the change of first order of the state `a` by the cubic potential, without the states that resonate with it: if
the cubic potential turns `a` into `Σ c_m |m⟩`, it is `Σ c_m / (E_a - E_m) |m⟩`; no other of these states may have the
energy of `a`. -/
def Response (R : Nat → Nat → Nat → Prop) (w : Nat → ℝ) (φ : Nat → Nat → Nat → ℝ) (a : Fin N → Nat) (p : Wave N) : Prop :=
  ∃ c : (Fin N → Nat) →₀ ℝ, cubic φ (oscState a) = c.sum (fun m y => y • oscState m) ∧
    (∀ m, c m ≠ 0 → ¬ Resonates R a m → ∑ i : Fin N, w i * a i ≠ ∑ i : Fin N, w i * m i) ∧
    p = c.sum fun m y => if Resonates R a m then 0 else (y / (∑ i : Fin N, w i * a i - ∑ i : Fin N, w i * m i)) • oscState m

/-- The coupling of the normalised states `a` and `b` in second order, with `a1` and `b1` their changes of first order:
the mean of `⟨b|H₁|a1⟩ + ⟨b|H₂|a⟩` and `⟨a|H₁|b1⟩ + ⟨a|H₂|b⟩`. -/
noncomputable def coupling (ip : Wave N → Wave N → ℝ) (w : Nat → ℝ) (φ : Nat → Nat → Nat → ℝ)
    (ψ : Nat → Nat → Nat → Nat → ℝ) (ζ : Nat → Nat → Nat → ℝ) (B : Nat → ℝ) (a b : Fin N → Nat) (a1 b1 : Wave N) : ℝ :=
  ((ip (oscState b) (cubic φ a1) + ip (oscState b) (quartic ψ (oscState a) + coriolis w ζ B (oscState a)) +
      (ip (oscState a) (cubic φ b1) + ip (oscState a) (quartic ψ (oscState b) + coriolis w ζ B (oscState b)))) / 2) /
    (Real.sqrt (ip (oscState a) (oscState a)) * Real.sqrt (ip (oscState b) (oscState b)))

/-- The coupling of the normalised states `a` and `b` by the cubic potential itself. -/
noncomputable def cubicCoupling (ip : Wave N → Wave N → ℝ) (φ : Nat → Nat → Nat → ℝ) (a b : Fin N → Nat) : ℝ :=
  ip (oscState b) (cubic φ (oscState a)) /
    (Real.sqrt (ip (oscState a) (oscState a)) * Real.sqrt (ip (oscState b) (oscState b)))

/-- The off-diagonal element, for normalised states, of the symmetric part of an effective Hamiltonian `h` written for the
states `a` and `b` as they are. -/
noncomputable def offDiagonal (ip : Wave N → Wave N → ℝ) (a b : Fin N → Nat) (h : Fin 2 → Fin 2 → ℝ) : ℝ :=
  ((h 1 0 * ip (oscState b) (oscState b) + h 0 1 * ip (oscState a) (oscState a)) / 2) /
    (Real.sqrt (ip (oscState a) (oscState a)) * Real.sqrt (ip (oscState b) (oscState b)))

end Verif.Osc
