import Mathlib.Data.Real.Basic
import Mathlib.Algebra.BigOperators.Group.Finset.Basic

/-!
Specification for C07–C09: displacements of an `N`-atom molecule are vectors of `3 N` numbers; the
rotation `R` applies the 3x3 axis matrix to each atom's three components; a force-constant tensor
acts on displacements as a multilinear form.
-/

namespace Verif

open Finset

/-- `R u`: the axes applied atom by atom, `(R u)_{3a+p} = Σ_q axes p q · u_{3a+q}` -/
noncomputable def applyAxes (axes : Nat → Nat → ℝ) (u : Nat → ℝ) : Nat → ℝ :=
  fun x => ∑ q ∈ range 3, axes (x % 3) q * u (3 * (x / 3) + q)

/-- the bilinear form of a Hessian -/
noncomputable def form2 (n : Nat) (h : Nat → Nat → ℝ) (u v : Nat → ℝ) : ℝ :=
  ∑ x ∈ range n, ∑ y ∈ range n, h x y * u x * v y

/-- the trilinear form of a cubic tensor -/
noncomputable def form3 (n : Nat) (h : Nat → Nat → Nat → ℝ) (u v w : Nat → ℝ) : ℝ :=
  ∑ x ∈ range n, ∑ y ∈ range n, ∑ z ∈ range n, h x y z * u x * v y * w z

/-- the quadrilinear form of a quartic tensor -/
noncomputable def form4 (n : Nat) (h : Nat → Nat → Nat → Nat → ℝ) (u v w s : Nat → ℝ) : ℝ :=
  ∑ x ∈ range n, ∑ y ∈ range n, ∑ z ∈ range n, ∑ t ∈ range n, h x y z t * u x * v y * w z * s t

/-- the axes are orthonormal: both `axesᵀ axes = 1` and `axes axesᵀ = 1` -/
def Orthogonal3 (axes : Nat → Nat → ℝ) : Prop :=
  (∀ p q, p < 3 → q < 3 → ∑ k ∈ range 3, axes k p * axes k q = if p = q then 1 else 0) ∧
  (∀ p q, p < 3 → q < 3 → ∑ k ∈ range 3, axes p k * axes q k = if p = q then 1 else 0)

/-- a symmetric matrix of size `n` -/
def Symm2 {β : Type} (n : Nat) (t : Nat → Nat → β) : Prop :=
  ∀ a b, a < n → b < n → t a b = t b a

/-- a fully symmetric cubic tensor: exchanging neighbouring indices (hence any permutation of them)
changes nothing -/
def Symm3 {β : Type} (n : Nat) (t : Nat → Nat → Nat → β) : Prop :=
  ∀ a b c, a < n → b < n → c < n → t a b c = t b a c ∧ t a b c = t a c b

/-- a fully symmetric quartic tensor -/
def Symm4 {β : Type} (n : Nat) (t : Nat → Nat → Nat → Nat → β) : Prop :=
  ∀ a b c d, a < n → b < n → c < n → d < n →
    t a b c d = t b a c d ∧ t a b c d = t a c b d ∧ t a b c d = t a b d c

end Verif
