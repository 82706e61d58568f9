import Mathlib.Data.Int.Log
import Mathlib.Data.Real.Archimedean
import Mathlib.Algebra.BigOperators.Group.Finset.Basic

/-!
# Rounding errors

The standard model of rounded arithmetic, and what the sizes of the terms are to which the errors of the anharmonic
constants should be compared. Nothing here refers to the model.
-/

namespace Verif

/-- Rounding with relative error at most `u`. -/
def Rounds (u : ℝ) (rnd : ℝ → ℝ) : Prop := 0 ≤ u ∧ u < 1 ∧ ∀ x, |rnd x - x| ≤ u * |x|

/-- Rounding to a nearest number with `p` binary digits and any exponent. -/
noncomputable def nearest (p : Nat) (x : ℝ) : ℝ :=
  let e : ℤ := Int.log 2 |x| - p + 1
  (round (x / 2 ^ e) : ℝ) * 2 ^ e

/-- The combinations `w_k + w_l - w_m` of frequencies that are not excepted are no closer to zero than the `κ`-th part
of `w_k + w_l + w_m`. -/
def ApartBy (κ : ℝ) (n : Nat) (except : Nat → Nat → Nat → Prop) (w : Nat → ℝ) : Prop :=
  ∀ k l m, k < n → l < n → m < n → ¬ except k l m → w k + w l + w m ≤ κ * |w k + w l - w m|

/-- How much `e` rounded operations in a row and `d` denominators with cancellation can magnify a number. -/
noncomputable def growth (u κ : ℝ) (e d : Nat) : ℝ :=
  (1 / (1 - u)) ^ e * (1 / (1 - κ * ((1 / (1 - u)) ^ 4 - 1))) ^ d

open Classical in
/-- The terms of `x_kk` added up without their signs; `R k l m` says that `k + l ≈ m` is treated as a resonance. -/
noncomputable def diagSize (R : Nat → Nat → Nat → Prop) (n : Nat) (w : Nat → ℝ) (F3 : Nat → Nat → Nat → ℝ)
    (F4 : Nat → Nat → Nat → Nat → ℝ) (k : Nat) : ℝ :=
  |F4 k k k k| / 16 + ∑ l ∈ Finset.range n, F3 k k l ^ 2 *
    if R k k l then 1 / (8 * w l) + 1 / (32 * (2 * w k + w l))
    else (8 * w k ^ 2 + 3 * w l ^ 2) / (16 * w l * |4 * w k ^ 2 - w l ^ 2|)

open Classical in
/-- The fractions by which `F_klm²` is multiplied in `x_kl`, without their signs. -/
noncomputable def facSize (R : Nat → Nat → Nat → Prop) (w : Nat → ℝ) (k l m : Nat) : ℝ :=
  let d1 := w k + w l + w m
  let d2 := |w k - w l + w m|
  let d3 := |w k + w l - w m|
  let d4 := |-w k + w l + w m|
  if R l m k ∧ m = l ∨ R k m l ∧ k = m then 1 / (8 * d1)
  else if R k l m then (1 / d1 + 1 / d2 + 1 / d4) / 8
  else if R l m k then (1 / d1 + 1 / d2 + 1 / d3) / 8
  else if R k m l then (1 / d1 + 1 / d3 + 1 / d4) / 8
  else w m * (w m ^ 2 + w k ^ 2 + w l ^ 2) / (2 * d1 * d2 * d3 * d4)

/-- The terms of `x_kl` added up without their signs. -/
noncomputable def offSize (R : Nat → Nat → Nat → Prop) (n : Nat) (w : Nat → ℝ) (F3 : Nat → Nat → Nat → ℝ)
    (F4 : Nat → Nat → Nat → Nat → ℝ) (zeta : Nat → Nat → Nat → ℝ) (B : Nat → ℝ) (k l : Nat) : ℝ :=
  |F4 k k l l| / 4 + ∑ m ∈ Finset.range n, |F3 k k m * F3 l l m| / (4 * w m)
    + ∑ m ∈ Finset.range n, F3 k l m ^ 2 * facSize R w k l m
    + (w k / w l + w l / w k) * ∑ a ∈ Finset.range 3, |B a| * zeta k l a ^ 2

/-- The terms of `w_i + 2 x_ii + ½ Σ_j x_ij` added up without their signs. -/
noncomputable def fundSize (R : Nat → Nat → Nat → Prop) (n : Nat) (w : Nat → ℝ) (F3 : Nat → Nat → Nat → ℝ)
    (F4 : Nat → Nat → Nat → Nat → ℝ) (zeta : Nat → Nat → Nat → ℝ) (B : Nat → ℝ) (i : Nat) : ℝ :=
  w i + 2 * diagSize R n w F3 F4 i + ∑ j ∈ Finset.range n,
    if j ≠ i then offSize R n w F3 F4 zeta B (max i j) (min i j) / 2 else 0

end Verif
