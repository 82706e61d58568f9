import Verif.Spec.Whole

/-!
# Specification for C114: sizes of the terms of vibration-rotation constants
-/

namespace Verif

open Finset

open Classical in
/-- The terms of `alphaSpec` added up without their signs; `w` is meant to be positive. -/
noncomputable def alphaSize (R : Nat → Nat → Nat → Prop) (n : Nat) (B I w : Nat → ℝ) (A : Nat → Nat → Nat → ℝ)
    (zeta F3 : Nat → Nat → Nat → ℝ) (i x : Nat) : ℝ :=
  2 * B x ^ 2 / w i *
    (3 / 4 * ∑ y ∈ range 3, A i x y ^ 2 / |I y| +
      ∑ j ∈ (range n).erase i, (if R i j x then zeta i j x ^ 2 * (w i - w j) ^ 2 / (2 * (w j * (w i + w j)))
        else zeta i j x ^ 2 * (3 * w i ^ 2 + w j ^ 2) / |w i ^ 2 - w j ^ 2|) +
      0.086112 * ∑ j ∈ range n, |A j x x| * |F3 i i j| * w i / w j ^ (3 / 2 : ℝ))

/-- The squares of two frequencies that do not resonate about axis `x` are no closer than the `κ`-th part of their sum. -/
def SquaresApart (κ : ℝ) (n : Nat) (except : Nat → Nat → Nat → Prop) (w : Nat → ℝ) (x : Nat) : Prop :=
  ∀ i j, i < n → j < n → i ≠ j → ¬ except i j x → w i ^ 2 + w j ^ 2 ≤ κ * |w i ^ 2 - w j ^ 2|

end Verif
