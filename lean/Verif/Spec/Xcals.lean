import Verif.Spec.Xcalc

/-!
# What the anharmonic constants of symmetric tops should be

Partial fractions again; the sums run over lists of modes.
-/

namespace Verif

/-- The mode numbers mentioned by the non-degenerate and doubly degenerate modes. -/
def modeNumbers (modes : List Mode) : List Nat :=
  modes.flatMap fun m => match m with | .i1 i => [i] | .i2 i j => [i, j] | .i3 _ _ _ => []

/-- The doubly degenerate modes. -/
abbrev degPairs (modes : List Mode) : List (Nat × Nat) :=
  modes.filterMap fun m => match m with | .i2 i j => some (i, j) | _ => none

/-- The diagonal constants; the sum runs over the modes `L`. -/
noncomputable def xkkSpecL (R : Nat → Nat → Nat → Prop) (L : List Nat) (w : Nat → ℝ)
    (F3 : Nat → Nat → Nat → ℝ) (F4 : Nat → Nat → Nat → Nat → ℝ) (k : Nat) : ℝ :=
  F4 k k k k / 16 - (L.map fun l => F3 k k l ^ 2 *
    (1 / (8 * w l) + 1 / (32 * (2 * w k + w l)) - fracUnless (R k k l) (2 * w k - w l) / 32)).sum

/-- The four fractions of a three-mode term, a listed one left out. -/
noncomputable def fourFracs (R : Nat → Nat → Nat → Prop) (w : Nat → ℝ) (k l m : Nat) : ℝ :=
  1 / (w k + w l + w m) + fracUnless (R k m l) (w k - w l + w m)
    - fracUnless (R k l m) (w k + w l - w m) + fracUnless (R l m k) (-w k + w l + w m)

/-- The constants between two non-degenerate modes; `c` is the rotational constant of the unique axis
(index 2). -/
noncomputable def xnnSpec (R : Nat → Nat → Nat → Prop) (L1 : List Nat) (w : Nat → ℝ)
    (F3 : Nat → Nat → Nat → ℝ) (F4 : Nat → Nat → Nat → Nat → ℝ) (zeta : Nat → Nat → Nat → ℝ)
    (B : Nat → ℝ) (k l : Nat) : ℝ :=
  F4 k k l l / 4 - (L1.map fun m => F3 k k m * F3 l l m / (4 * w m)).sum
    - (L1.map fun m => F3 k l m ^ 2 / 8 * fourFracs R w k l m).sum
    + (w k / w l + w l / w k) * (B 2 * zeta k l 2 ^ 2)

/-- The constants between the non-degenerate mode `k` and the degenerate mode `l`; `L2` are the first
components of the degenerate modes. -/
noncomputable def xndSpec (R : Nat → Nat → Nat → Prop) (L1 L2 : List Nat) (w : Nat → ℝ)
    (F3 : Nat → Nat → Nat → ℝ) (F4 : Nat → Nat → Nat → Nat → ℝ) (zeta : Nat → Nat → Nat → ℝ)
    (B : Nat → ℝ) (k l : Nat) : ℝ :=
  F4 k k l l / 4 - (L1.map fun m => F3 k k m * F3 l l m / (4 * w m)).sum
    - (L2.map fun m => F3 k l m ^ 2 / 8 * fourFracs R w k l m).sum
    + (w k / w l + w l / w k) * (B 1 * (zeta k l 0 ^ 2 + zeta k l 1 ^ 2))

/-- The constants between the degenerate modes `k` and `(l, l2)`. -/
noncomputable def xddSpec (R : Nat → Nat → Nat → Prop) (L1 L2 : List Nat) (w : Nat → ℝ)
    (F3 : Nat → Nat → Nat → ℝ) (F4 : Nat → Nat → Nat → Nat → ℝ) (zeta : Nat → Nat → Nat → ℝ)
    (B : Nat → ℝ) (ax : Nat) (k l l2 : Nat) : ℝ :=
  (F4 k k l l + F4 k k l2 l2) / 8 - (L1.map fun m => F3 k k m * F3 l l m / (4 * w m)).sum
    - (L1.map fun m => F3 k l m ^ 2 / 16 * fourFracs R w k l m).sum
    - (L2.map fun m => F3 k l m ^ 2 / 8 * fourFracs R w k l m).sum
    + (w k / w l + w l / w k) * (B 2 / 2 * zeta k l2 2 ^ 2 + B 1 * zeta k l ax ^ 2)

/-- The perpendicular axis `ax` (0 is x, 1 is y) whose Coriolis couplings enter the degenerate blocks. It is
y, except for a non-linear molecule none of whose second components `second` changes the product of inertia
xz (column 3 of the derivatives `a`, within 10⁻⁶) negligibly, while one of them changes yz (column 4)
negligibly: then it is x. -/
def CouplingAxis (linear : Prop) (second : List Nat) (a : Nat → Nat → ℝ) (ax : Nat) : Prop :=
  ax ≤ 1 ∧ (ax = 0 ↔ ¬ linear ∧ (∀ j ∈ second, 1 / 1000000 < |a j 3|) ∧ ∃ j ∈ second, |a j 4| ≤ 1 / 1000000)

/-- The only listed combination of `k`, `l`, `m` is `k + l ≈ m`, if any; and then it is the only
resonance listed for the pair `(k, l)`, in this order. -/
def ThirdOnly (f1 : List Fermi1) (f2 : List Fermi2) (k l m : Nat) : Prop :=
  ¬ Listed f1 f2 l m k ∧ ¬ Listed f1 f2 m l k ∧ ¬ Listed f1 f2 k m l ∧ ¬ Listed f1 f2 m k l ∧
  (Listed f1 f2 k l m → (⟨k, l, m⟩ : Fermi2) ∈ f2 ∧ ∀ g ∈ f2, g.i = k → g.j = l → g.k = m)

/-- The denominators of a three-mode term do not vanish. -/
def DensOk (w : Nat → ℝ) (k l m : Nat) : Prop :=
  w k + w l + w m ≠ 0 ∧ w k - w l + w m ≠ 0 ∧ w k + w l - w m ≠ 0 ∧ -w k + w l + w m ≠ 0

/-- The diagonal g constants of the degenerate mode `(k, k2)`. -/
noncomputable def gkkSpec (R : Nat → Nat → Nat → Prop) (L1 L2 : List Nat) (w : Nat → ℝ)
    (F3 : Nat → Nat → Nat → ℝ) (F4 : Nat → Nat → Nat → Nat → ℝ) (zeta : Nat → Nat → Nat → ℝ)
    (B : Nat → ℝ) (k k2 : Nat) : ℝ :=
  -F4 k k k k / 48
    - (L1.map fun l => F3 k k l ^ 2 / 32 * (fracUnless (R k k l) (2 * w k - w l) - 1 / (2 * w k + w l))).sum
    + (L2.map fun l => F3 k k l ^ 2 * (1 / (8 * w l) + fracUnless (R k k l) (2 * w k - w l) / 32
        - 1 / (32 * (2 * w k + w l)))).sum
    + B 2 * zeta k k2 2 ^ 2

/-- The four fractions of a three-mode term of the g constants. -/
noncomputable def gFracs (R : Nat → Nat → Nat → Prop) (w : Nat → ℝ) (k l m : Nat) : ℝ :=
  -(1 / (w k + w l + w m)) + fracUnless (R k m l) (w k - w l + w m)
    + fracUnless (R k l m) (w k + w l - w m) + fracUnless (R l m k) (-w k + w l + w m)

/-- The off-diagonal g constants. -/
noncomputable def gklSpec (R : Nat → Nat → Nat → Prop) (L1 L2 : List Nat) (w : Nat → ℝ)
    (F3 : Nat → Nat → Nat → ℝ) (zeta : Nat → Nat → Nat → ℝ)
    (B : Nat → ℝ) (ax : Nat) (k k2 l l2 : Nat) : ℝ :=
  -(L1.map fun m => F3 k l m ^ 2 / 16 * gFracs R w k l m).sum
    + (L2.map fun m => F3 k l m ^ 2 / 8 * gFracs R w k l m).sum
    - 2 * B 1 * zeta k l ax ^ 2 + B 2 * zeta k l2 2 ^ 2 + 2 * B 2 * zeta k k2 2 * zeta l l2 2

/-- The part of the zero-point constant from one degenerate mode and at most one non-degenerate one. -/
noncomputable def e2Spec (R : Nat → Nat → Nat → Prop) (L1 L2 : List Nat) (w : Nat → ℝ)
    (F3 : Nat → Nat → Nat → ℝ) (F4 : Nat → Nat → Nat → Nat → ℝ) : ℝ :=
  (L2.map fun k => F4 k k k k / 48).sum + (L2.map fun k => 11 * F3 k k k ^ 2 / (144 * w k)).sum
    + (L2.map fun k => (L1.map fun l => F3 k k l ^ 2 / 32 *
        (fracUnless (R k k l) (2 * w k - w l) - 1 / (2 * w k + w l))).sum).sum

/-- The part of the zero-point constant from several degenerate modes: pairs, pairs with a non-degenerate
mode, triples. -/
noncomputable def e3Spec (R : Nat → Nat → Nat → Prop) (L1 L2 : List Nat) (w : Nat → ℝ)
    (F3 : Nat → Nat → Nat → ℝ) : ℝ :=
  (L2.map fun k => ((L2.filter fun l => k ≠ l).map fun l => F3 k k l ^ 2 / 16 *
      (2 / w l + 3 / 2 * (fracUnless (R k k l) (2 * w k - w l) - 1 / (2 * w k + w l)))).sum).sum
    + (L2.map fun k => ((L2.filter fun l => l < k).map fun l => (L1.map fun m =>
      F3 k l m ^ 2 / 16 * gFracs R w k l m).sum).sum).sum
    + (L2.map fun k => ((L2.filter fun l => l < k).map fun l => ((L2.filter fun m => m < l).map fun m =>
      F3 k l m ^ 2 / 8 * gFracs R w k l m).sum).sum).sum

open Classical in
/-- The terms of `e3Spec` which the code leaves out: all of them for a linear molecule; otherwise those of a non-degenerate mode and
two degenerate ones, neither of them the last, and those of three degenerate modes. -/
noncomputable def e3Missing (linear : Prop) (R : Nat → Nat → Nat → Prop) (L1 L2 : List Nat) (w : Nat → ℝ)
    (F3 : Nat → Nat → Nat → ℝ) : ℝ :=
  if linear then e3Spec R L1 L2 w F3 else
  (L2.dropLast.map fun k => ((L2.filter fun l => l < k).map fun l => (L1.map fun m =>
      F3 k l m ^ 2 / 16 * gFracs R w k l m).sum).sum).sum
    + (L2.map fun k => ((L2.filter fun l => l < k).map fun l => ((L2.filter fun m => m < l).map fun m =>
      F3 k l m ^ 2 / 8 * gFracs R w k l m).sum).sum).sum

end Verif
