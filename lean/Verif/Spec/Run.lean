import Verif.Spec.Normal
import Verif.Spec.Rotate

/-!
# The run as a whole: what it should give
-/

namespace Verif

/-- What the symmetry code should be asked: `r` is its answer for the first of the tolerances `eps`, `10 eps`,
`100 eps`, .. at which it has one. A tolerance of at least 0.1 is the last one tried; if it fails too, the answer
is `a`. -/
def IrrepAnswer {ι : Type} (ask : ℝ → Option ι) (a : ι) (eps : ℝ) (r : ι) : Prop :=
  ∃ k : Nat, (∀ j < k, ask (eps * 10 ^ j) = none ∧ eps * 10 ^ j < 1 / 10) ∧
    (ask (eps * 10 ^ k) = some r ∨ ask (eps * 10 ^ k) = none ∧ 1 / 10 ≤ eps * 10 ^ k ∧ r = a)

open Finset in
/-- What an eigensolver must return for a symmetric matrix of size `n`: `n` eigenvalues with orthonormal
eigenvectors (the columns of the second component). -/
def IsEigen (n : Nat) (m : Nat → Nat → ℝ) (r : List ℝ × (Nat → Nat → ℝ)) : Prop :=
  r.1.length = n ∧ OrthonormalCols n r.2 ∧
  ∀ i l, r.1[i]? = some l → ∀ a < n, ∑ b ∈ range n, m a b * r.2 b i = l * r.2 a i

open Finset in
/-- The scalar product of two displacements weighted with the masses of the atoms. -/
noncomputable def massForm (n : Nat) (mass : Nat → ℝ) (u v : Nat → ℝ) : ℝ :=
  ∑ x ∈ range n, mass (x / 3) * u x * v x

end Verif
