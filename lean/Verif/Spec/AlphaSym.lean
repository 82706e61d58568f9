import Verif.Spec.Whole
import Verif.Spec.Xcals

/-!
# Vibration-rotation constants of symmetric tops: what they should be

The unique axis is 2. A doubly degenerate mode `(k, k2)` has two components; what is reported for it is the average
over them of the formula for a molecule without symmetry.
-/

namespace Verif

/-- What the vibration-rotation constants are made of: rotational constants `B`, principal moments `I`, harmonic
frequencies `w`, derivatives `A k p q` of the inertia tensor, Coriolis constants `zeta`, cubic constants `F`. -/
structure VibRot where
  B : Nat → ℝ
  I : Nat → ℝ
  w : Nat → ℝ
  A : Nat → Nat → Nat → ℝ
  zeta : Nat → Nat → Nat → ℝ
  F : Nat → Nat → Nat → ℝ

open Classical in
/-- The Coriolis term of two vibrations, without its singular part if they resonate. -/
noncomputable def rotTerm (res : Prop) (z wi wj : ℝ) : ℝ :=
  if res then rotationTermRes z wi wj else rotationTerm z wi wj

/-- The term of the cubic constants, summed over the vibrations `L`. -/
noncomputable def VibRot.cubicTerm (D : VibRot) (L : List Nat) (i x : Nat) : ℝ :=
  0.086112 * (L.map fun j => D.A j x x * D.F i i j * D.w i / D.w j ^ (3 / 2 : ℝ)).sum

/-- The vibration-rotation constant of vibration `i` about axis `x` for a molecule whose vibrations are `L` and whose
axes with a moment of inertia are `ys`; `skip` is the vibration of the same degenerate mode as `i`, if any. -/
noncomputable def VibRot.general (D : VibRot) (ys L : List Nat) (skip : Option Nat) (i x : Nat) : ℝ :=
  2 * D.B x ^ 2 / D.w i *
    (3 / 4 * (ys.map fun y => D.A i x y ^ 2 / D.I y).sum +
      ((L.filter fun j => j ≠ i ∧ some j ≠ skip).map fun j => rotationTerm (D.zeta i j x) (D.w i) (D.w j)).sum +
      D.cubicTerm L i x)

/-- The average of `VibRot.general` over the components of the degenerate mode `(k, k2)`. -/
noncomputable def VibRot.pairAverage (D : VibRot) (ys L : List Nat) (k k2 x : Nat) : ℝ :=
  (D.general ys L (some k2) k x + D.general ys L (some k) k2 x) / 2

/-- The data belong to a molecule with an axis of symmetry (2) of order three or more and with a plane of symmetry
containing the axes 2 and `m` (the other one being `m'`), with respect to which the first component of each degenerate
mode is even and the second odd. `s k` is 1 for the non-degenerate vibrations that are unchanged when the axes 0 and 1
are exchanged and -1 for those that change sign. -/
structure VibRot.Axial (D : VibRot) (modes : List Mode) (s : Nat → ℝ) (m m' : Nat) : Prop where
  /-- The moments about the other axes are equal. -/
  inertia : D.I 0 = D.I 1
  /-- The Coriolis constants are antisymmetric. -/
  anti : ∀ i j x, D.zeta i j x = -D.zeta j i x
  /-- The cubic constants are symmetric. -/
  cubic : ∀ i j k, D.F i j k = D.F j i k ∧ D.F i j k = D.F i k j
  /-- The derivatives of the inertia tensor are symmetric. -/
  tensor : ∀ i x y, D.A i x y = D.A i y x
  /-- Non-degenerate vibrations. -/
  single : ∀ k, .i1 k ∈ modes → D.A k 0 0 = s k * D.A k 1 1 ∧ D.A k 2 0 = 0 ∧ D.A k 2 1 = 0
  /-- Two non-degenerate vibrations. -/
  singles : ∀ k j, .i1 k ∈ modes → .i1 j ∈ modes → D.zeta k j 0 = 0 ∧ D.zeta k j 1 = 0
  /-- Degenerate modes. -/
  pair : ∀ k k2, .i2 k k2 ∈ modes → D.w k2 = D.w k ∧
    D.A k 2 2 = 0 ∧ D.A k 0 1 = 0 ∧ D.A k 0 0 = -D.A k 1 1 ∧ D.A k 2 m' = 0 ∧
    D.A k2 2 2 = 0 ∧ D.A k2 0 0 = 0 ∧ D.A k2 1 1 = 0 ∧ D.A k2 2 m = 0 ∧
    D.A k2 0 1 ^ 2 = D.A k 0 0 ^ 2 ∧ D.A k2 2 m' ^ 2 = D.A k 2 m ^ 2
  /-- A non-degenerate vibration and a degenerate mode. -/
  mixed : ∀ j k k2, .i1 j ∈ modes → .i2 k k2 ∈ modes →
    D.zeta j k 2 = 0 ∧ D.zeta j k2 2 = 0 ∧ D.zeta j k2 1 ^ 2 = D.zeta j k 0 ^ 2 ∧
    D.F j k2 k2 = s j * D.F j k k ∧ D.F j j k = 0 ∧ D.F j j k2 = 0
  /-- Two different degenerate modes. -/
  pairs : ∀ k k2 j j2, .i2 k k2 ∈ modes → .i2 j j2 ∈ modes → (k, k2) ≠ (j, j2) →
    D.zeta k j 2 = 0 ∧ D.zeta k2 j2 2 = 0 ∧ D.zeta k2 j 2 ^ 2 = D.zeta k j2 2 ^ 2 ∧
    D.zeta k2 j2 1 ^ 2 = D.zeta k j 1 ^ 2 ∧ D.zeta k j2 1 ^ 2 = D.zeta k j 0 ^ 2 ∧
    D.zeta k2 j 1 ^ 2 = D.zeta k j 0 ^ 2
  /-- The cubic constants of degenerate modes. -/
  cubics : ∀ k k2 j j2, .i2 k k2 ∈ modes → .i2 j j2 ∈ modes →
    D.F k k j2 = 0 ∧ D.F k2 k2 j2 = 0 ∧ D.F k2 k2 j = -D.F k k j

/-- The constant of a non-degenerate mode about the unique axis; `L1` are the non-degenerate modes and `res j k x`
says which pairs count as resonant. -/
noncomputable def VibRot.uniqueSingle (D : VibRot) (res : Nat → Nat → Nat → Prop) (L1 : List Nat) (k : Nat) : ℝ :=
  2 * D.B 2 ^ 2 / D.w k * (3 / 4 * D.A k 2 2 ^ 2 / D.I 2 +
    ((L1.filter fun j => j ≠ k).map fun j => rotTerm (res j k 2) (D.zeta j k 2) (D.w k) (D.w j)).sum +
    0.086112 * (L1.map fun j => D.A j 2 2 * D.F j k k * D.w k / D.w j ^ (3 / 2 : ℝ)).sum)

/-- The constant of the degenerate mode `k` about the unique axis; `m` is the axis in the plane of symmetry. -/
noncomputable def VibRot.uniquePair (D : VibRot) (res : Nat → Nat → Nat → Prop) (L1 : List Nat) (L2 : List (Nat × Nat))
    (m k : Nat) : ℝ :=
  2 * D.B 2 ^ 2 / D.w k * (3 / 4 * D.A k 2 m ^ 2 / D.I 1 +
    ((L2.filter fun j => j.1 ≠ k).map fun j => rotTerm (res j.1 k 2) (D.zeta k j.2 2) (D.w k) (D.w j.1)).sum +
    0.086112 * (L1.map fun j => D.A j 2 2 * D.F j k k * D.w k / D.w j ^ (3 / 2 : ℝ)).sum)

/-- The two perpendicular Coriolis terms of the modes `k` and `j`. -/
noncomputable def VibRot.perp (D : VibRot) (res : Nat → Nat → Nat → Prop) (k j : Nat) : ℝ :=
  rotTerm (res j k 0) (D.zeta k j 0) (D.w k) (D.w j) + rotTerm (res j k 1) (D.zeta k j 1) (D.w k) (D.w j)

/-- The constant of a non-degenerate mode about a perpendicular axis. -/
noncomputable def VibRot.perpSingle (D : VibRot) (res : Nat → Nat → Nat → Prop) (L1 : List Nat) (L2 : List (Nat × Nat))
    (m k : Nat) : ℝ :=
  2 * D.B 1 ^ 2 / D.w k * (3 / 4 * (D.A k m m ^ 2 + D.A k 0 1 ^ 2) / D.I 1 +
    (L2.map fun j => D.perp res k j.1).sum +
    0.086112 * (L1.map fun j => D.A j m m * D.F j k k * D.w k / D.w j ^ (3 / 2 : ℝ)).sum)

/-- The constant of the degenerate mode `k` about a perpendicular axis. -/
noncomputable def VibRot.perpPair (D : VibRot) (res : Nat → Nat → Nat → Prop) (L1 : List Nat) (L2 : List (Nat × Nat))
    (m k : Nat) : ℝ :=
  2 * D.B 1 ^ 2 / D.w k * (3 / 8 * (2 * D.A k m m ^ 2 / D.I 1 + D.A k 2 m ^ 2 / D.I 2) +
    ((L2.filter fun j => j.1 ≠ k).map fun j => D.perp res k j.1).sum +
    (L1.map fun j => D.perp res k j).sum / 2 +
    0.086112 * (L1.map fun j => D.A j m m * D.F j k k * D.w k / D.w j ^ (3 / 2 : ℝ)).sum)

/-- The constant of the bending mode `k` of a linear molecule. -/
noncomputable def VibRot.linearPair (D : VibRot) (res : Nat → Nat → Nat → Prop) (L1 : List Nat) (m k : Nat) : ℝ :=
  2 * D.B 1 ^ 2 / D.w k * ((L1.map fun j => D.perp res k j).sum / 2 +
    0.086112 * (L1.map fun j => D.A j m m * D.F j k k * D.w k / D.w j ^ (3 / 2 : ℝ)).sum)

/-- The rotational constant about axis `x` averaged over a state with `occ` quanta: each non-degenerate vibration
contributes half a quantum more than it has, each degenerate one a whole quantum more. -/
noncomputable def averagedSpec (B : Nat → ℝ) (al : Nat → Nat → ℝ) (L1 : List Nat) (L2 : List (Nat × Nat))
    (occ : Nat × Nat → Nat × Nat) (x : Nat) : ℝ :=
  B x + ∑ p ∈ Finset.range L1.length, al (L1.getD p 0) x * ((occ (1, p)).1 + 1 / 2) +
    ∑ p ∈ Finset.range L2.length, al (L2.getD p (0, 0)).1 x * ((occ (2, p)).1 + 1)

end Verif
