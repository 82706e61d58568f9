import Verif.Spec.Rotate

/-!
Specification for C97 and C98: two descriptions of the same molecule. The second one is obtained from the first by
turning the coordinate system, naming the atoms in another order and pointing the principal axes the other way.
-/

namespace Verif

open Finset

/-- The displacement `u` in the second description: atom `a` of the second is atom `order a` of the first, and the
matrix `R` takes the coordinates of the first to those of the second. -/
noncomputable def moved (R : Nat → Nat → ℝ) (order : Nat → Nat) (u : Nat → ℝ) : Nat → ℝ :=
  fun x => ∑ q ∈ range 3, R (x % 3) q * u (3 * order (x / 3) + q)

/-- `order` rearranges the atoms `0 .. n-1`. -/
def IsOrder (n : Nat) (order : Nat → Nat) : Prop :=
  (∀ a < n, order a < n) ∧ ∀ a < n, ∀ b < n, order a = order b → a = b

/-- What a run reads about the molecule: principal axes, coordinates in the frame of the principal axes, masses and
force constants in the frame of the input. -/
structure Description where
  axes : Nat → Nat → ℝ
  pos : Nat → Nat → ℝ
  weights : Nat → ℝ
  fc2 : Nat → Nat → ℝ
  fc3 : Nat → Nat → Nat → ℝ
  fc4 : Nat → Nat → Nat → Nat → ℝ

/-- `e` describes the same molecule with `n` atoms as `d`: there are a change of coordinates `R` and an order of the
atoms such that masses, positions and principal axes correspond, the latter up to their direction (`dir`), and the
energy of corresponding displacements is the same to fourth order. -/
structure SameMolecule (n : Nat) (d e : Description) (R : Nat → Nat → ℝ) (order : Nat → Nat) (dir : Nat → ℝ) : Prop where
  isOrder : IsOrder n order
  isDir : ∀ q, dir q = 1 ∨ dir q = -1
  weights : ∀ a < n, e.weights a = d.weights (order a)
  axes : ∀ p < 3, ∀ q < 3, e.axes p q = dir q * ∑ u ∈ range 3, R p u * d.axes u q
  pos : ∀ a < n, ∀ p < 3, ∑ q ∈ range 3, e.axes p q * e.pos a q =
    ∑ u ∈ range 3, R p u * ∑ q ∈ range 3, d.axes u q * d.pos (order a) q
  fc2 : ∀ u v, form2 (3 * n) e.fc2 (moved R order u) (moved R order v) = form2 (3 * n) d.fc2 u v
  fc3 : ∀ u v w, form3 (3 * n) e.fc3 (moved R order u) (moved R order v) (moved R order w) = form3 (3 * n) d.fc3 u v w
  fc4 : ∀ u v w s, form4 (3 * n) e.fc4 (moved R order u) (moved R order v) (moved R order w) (moved R order s) =
    form4 (3 * n) d.fc4 u v w s

end Verif
