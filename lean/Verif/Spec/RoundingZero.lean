import Verif.Spec.Rounding
import Mathlib.Data.Real.Basic
import Mathlib.Algebra.BigOperators.Group.List.Basic

/-!
# Sizes of the terms of the zero-point constant and of the energies

To these the rounding errors of the zero-point constant and of the energies of vibrational states are compared. Nothing here refers to the model.
-/

namespace Verif

/-- The terms of the zero-point constant of the modes `l`, no resonances among them, added up without their signs. -/
noncomputable def e0Size (l : List Nat) (w : Nat → ℝ) (F3 : Nat → Nat → Nat → ℝ) (F4 : Nat → Nat → Nat → Nat → ℝ) : ℝ :=
  (l.map fun k => |F4 k k k k| / 64).sum + (l.map fun k => 7 * F3 k k k ^ 2 / (576 * w k)).sum
    + (l.map fun a => ((l.filter fun b => a ≠ b).map fun b =>
        3 * F3 a a b ^ 2 * w b / (64 * |4 * w a ^ 2 - w b ^ 2|)).sum).sum
    + (l.map fun a => ((l.filter fun b => b < a).map fun b => ((l.filter fun c => c < b).map fun c =>
        F3 a b c ^ 2 * (w a * w b * w c) /
          (4 * (w a + w b + w c) * |w a - w b + w c| * |w a + w b - w c| * |w a - w b - w c|)).sum).sum).sum

/-- The terms of the energy of a vibrational state with `n_i` quanta in mode `i < N`, no resonances, added up without their signs, the
anharmonic constants and the zero-point constant taken apart into their terms. -/
noncomputable def levelSize (N : Nat) (w : Nat → ℝ) (F3 : Nat → Nat → Nat → ℝ) (F4 : Nat → Nat → Nat → Nat → ℝ)
    (zeta : Nat → Nat → Nat → ℝ) (B : Nat → ℝ) (n : Nat → Nat) : ℝ :=
  e0Size (List.range N) w F3 F4 + ∑ i ∈ Finset.range N, w i * ((n i : ℝ) + 1 / 2)
    + ∑ k ∈ Finset.range N, ∑ l ∈ Finset.range (k + 1), (if l = k then diagSize (fun _ _ _ => False) N w F3 F4 k
        else offSize (fun _ _ _ => False) N w F3 F4 zeta B k l) * ((n k : ℝ) + 1 / 2) * ((n l : ℝ) + 1 / 2)

end Verif
