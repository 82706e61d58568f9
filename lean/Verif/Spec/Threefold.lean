import Verif.Spec.Rotate
import Mathlib.Analysis.Real.Sqrt
import Mathlib.Data.List.Perm.Basic

/-!
# Molecules with a threefold axis and a perpendicular half-turn or a mirror plane through the axis

The vibrations come as non-degenerate modes and as pairs `(t.1, t.2)` of modes which the threefold axis mixes.
Nothing here refers to the model.
-/

namespace Verif

open Finset

/-- `v` are the normal coordinates `u` after a third of a turn: non-degenerate modes stay, the two components of a pair turn
into each other, one way round or the other (`s t.1 = ±1`). -/
structure ThirdTurn (one : List Nat) (two : List (Nat × Nat)) (s u v : Nat → ℝ) : Prop where
  single : ∀ k ∈ one, v k = u k
  first : ∀ t ∈ two, v t.1 = -1 / 2 * u t.1 - s t.1 * (Real.sqrt 3 / 2) * u t.2
  second : ∀ t ∈ two, v t.2 = s t.1 * (Real.sqrt 3 / 2) * u t.1 - 1 / 2 * u t.2

/-- `y` are the components about the axes (2 is the threefold one) of the angular momentum `x` after a third of a turn. -/
def AxesThirdTurn (x y : Nat → ℝ) : Prop :=
  y 0 = -1 / 2 * x 0 - Real.sqrt 3 / 2 * x 1 ∧ y 1 = Real.sqrt 3 / 2 * x 0 - 1 / 2 * x 1 ∧ y 2 = x 2

/-- The trilinear form of the Coriolis constants: two sets of normal coordinates and an angular momentum. -/
noncomputable def coriolisForm (N : Nat) (ζ : Nat → Nat → Nat → ℝ) (u v x : Nat → ℝ) : ℝ :=
  ∑ i ∈ range N, ∑ j ∈ range N, ∑ a ∈ range 3, ζ i j a * u i * v j * x a

/-- The frequencies `w`, the cubic, quartic and Coriolis constants `φ`, `ψ`, `ζ` and the rotational constants `B` of `N` modes
have a threefold axis (axis 2) and, in addition, a symmetry operation which leaves the first component of every pair as it
is and reverses the second one: a half-turn about the perpendicular axis `ax` (0 or 1), or a mirror plane which contains the
threefold axis and is perpendicular to `ax`. It multiplies mode `i` by `p i = ±1`; rotations about `ax` keep their sense,
those about the two other axes are reversed. -/
structure Threefold (N : Nat) (one : List Nat) (two : List (Nat × Nat)) (s p : Nat → ℝ) (ax : Nat) (w : Nat → ℝ)
    (φ : Nat → Nat → Nat → ℝ) (ψ : Nat → Nat → Nat → Nat → ℝ) (ζ : Nat → Nat → Nat → ℝ) (B : Nat → ℝ) : Prop where
  modes : (one ++ two.map (·.1) ++ two.map (·.2)).Perm (List.range N)
  sense : ∀ t ∈ two, s t.1 = 1 ∨ s t.1 = -1
  sign : ∀ i < N, p i = 1 ∨ p i = -1
  components : ∀ t ∈ two, p t.1 = 1 ∧ p t.2 = -1
  axis : ax ≤ 1
  frequencies : ∀ t ∈ two, w t.2 = w t.1
  rotation : B 0 = B 1
  cubicTurn : ∀ u v t u' v' t', ThirdTurn one two s u u' → ThirdTurn one two s v v' → ThirdTurn one two s t t' →
    form3 N φ u' v' t' = form3 N φ u v t
  cubicFlip : ∀ u v t, form3 N φ (fun i => p i * u i) (fun i => p i * v i) (fun i => p i * t i) = form3 N φ u v t
  quarticTurn : ∀ u v t r u' v' t' r', ThirdTurn one two s u u' → ThirdTurn one two s v v' → ThirdTurn one two s t t' →
    ThirdTurn one two s r r' → form4 N ψ u' v' t' r' = form4 N ψ u v t r
  quarticFlip : ∀ u v t r, form4 N ψ (fun i => p i * u i) (fun i => p i * v i) (fun i => p i * t i) (fun i => p i * r i) =
    form4 N ψ u v t r
  coriolisTurn : ∀ u v x u' v' x', ThirdTurn one two s u u' → ThirdTurn one two s v v' → AxesThirdTurn x x' →
    coriolisForm N ζ u' v' x' = coriolisForm N ζ u v x
  coriolisFlip : ∀ u v x, coriolisForm N ζ (fun i => p i * u i) (fun i => p i * v i)
    (fun a => if a = ax then x a else -x a) = coriolisForm N ζ u v x

end Verif
