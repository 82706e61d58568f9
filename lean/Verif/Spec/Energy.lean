import Verif.Spec.Mode
import Mathlib.Analysis.Real.Sqrt

/-!
# Energies: what they should be
-/

namespace Verif

/-- The sum of `f a b` over the unordered pairs of positions of `L`, equal positions included. -/
def unorderedSum {ι : Type} (f : ι → ι → ℝ) : List ι → ℝ
  | [] => 0
  | a :: L => f a a + (L.map fun b => f a b).sum + unorderedSum f L

/-- The oscillators of a molecule with `n1` non-degenerate and `n2` doubly degenerate modes: (degeneracy,
position). -/
def oscillators (n1 n2 : Nat) : List (Nat × Nat) :=
  (List.range n1).map (fun p => (1, p)) ++ (List.range n2).map fun p => (2, p)

/-- The index of an oscillator in the lists of non-degenerate and degenerate modes (of a degenerate mode,
the first component counts). -/
def oscIdx (i1mode : List Nat) (i2mode : List (Nat × Nat)) (o : Nat × Nat) : Nat :=
  if o.1 = 1 then i1mode.getD o.2 0 else (i2mode.getD o.2 (0, 0)).1

/-- The energy of a state with quanta `occ`: `E0 + Σ w (v + d/2) + Σ_{i ≤ j} x (v + d/2) (v' + d'/2) +
Σ_{i ≤ j} g l l'`; `idx` numbers the oscillators. -/
noncomputable def levelEnergy (n1 n2 : Nat) (idx : Nat × Nat → Nat) (w : Nat → ℝ) (x g : Nat → Nat → ℝ)
    (E0 : ℝ) (occ : Nat × Nat → Nat × Nat) : ℝ :=
  let h := fun o : Nat × Nat => ((occ o).1 : ℝ) + (o.1 : ℝ) / 2
  E0 + ((oscillators n1 n2).map fun o => w (idx o) * h o).sum
    + unorderedSum (fun o o' => x (idx o) (idx o') * h o * h o') (oscillators n1 n2)
    + unorderedSum (fun o o' => g (idx o) (idx o') * (occ o).2 * (occ o').2)
        ((List.range n2).map fun p => (2, p))

/-- The upper and lower level of two levels `p`, `q` coupled by `v`; the first component belongs to `p`. -/
noncomputable def twoLevel (p q v : ℝ) : ℝ × ℝ :=
  let d := Real.sqrt (((p - q) / 2) ^ 2 + v ^ 2)
  if q ≤ p then ((p + q) / 2 + d, (p + q) / 2 - d) else ((p + q) / 2 - d, (p + q) / 2 + d)

/-- What an eigensolver must return for the matrix `[[p, v], [v, q]]`: two eigenvalues and two orthonormal
eigenvectors. -/
def IsEigen2 (p v q : ℝ) (r : List ℝ × (Nat → Nat → ℝ)) : Prop :=
  r.1.length = 2 ∧
  (∀ i l, r.1[i]? = some l → p * r.2 0 i + v * r.2 1 i = l * r.2 0 i ∧
    v * r.2 0 i + q * r.2 1 i = l * r.2 1 i ∧ r.2 0 i ^ 2 + r.2 1 i ^ 2 = 1) ∧
  r.2 0 0 * r.2 0 1 + r.2 1 0 * r.2 1 1 = 0

end Verif
