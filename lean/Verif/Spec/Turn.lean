import Mathlib.Analysis.SpecialFunctions.Trigonometric.Basic

/-!
# The sign rule for the degenerate modes of a symmetric top
-/

namespace Verif

/-- The two numbers compared in round `n` of the sign rule, /repo/spectro/src/lib.rs:650-704: for an axis of order `N`,
the reference atom's component `x`, the equivalent atom's components `x2`, `x2 + 1` and the modes `i`, `j`. -/
noncomputable def turnTest (N n x x2 i j : Nat) (l : Nat → Nat → ℝ) : ℝ × ℝ :=
  let α := -2 * Real.pi / N
  if 1 / 100000 < |Real.cos α| then
    (Real.cos α * l x i - Real.cos (α * n) * l x2 i, l x2 j * Real.sin (-α * n))
  else (Real.sin α * l x i - Real.cos (α * n) * l (x2 + 1) i, l (x2 + 1) j * Real.sin (-α * n))

/-- The two numbers of round `n` agree in size. -/
def TurnAgrees (N n x x2 i j : Nat) (l : Nat → Nat → ℝ) : Prop :=
  |(|(turnTest N n x x2 i j l).1| - |(turnTest N n x x2 i j l).2|) / l x i| < 1 / 1000

/-- Round `n` is the first in which they agree, among those the code goes through. -/
def FirstTurn (N n x x2 i j : Nat) (l : Nat → Nat → ℝ) : Prop :=
  1 ≤ n ∧ n ≤ 5 ∧ 2 * (n - 1) < N ∧ TurnAgrees N n x x2 i j l ∧ ∀ k, 1 ≤ k → k < n → ¬ TurnAgrees N k x x2 i j l

end Verif
