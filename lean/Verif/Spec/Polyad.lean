import Verif.Model.Polyad
import Verif.Lemmas.Loop

/-!
# What the polyad code should compute (C60, C61, C71 to C73)
-/

namespace Verif

/-- The frequency with its sign. -/
def signedFreq (w : Nat → ℝ) : SignIdx → ℝ
  | .plus n => w n
  | .minus n => -w n

/-- The other sign. -/
def SignIdx.flip : SignIdx → SignIdx
  | .plus n => .minus n
  | .minus n => .plus n

/-- A listed resonance is the signed index triple, read in any order and with either overall sign. -/
def MatchesListed (fermi1 : List Fermi1) (fermi2 : List Fermi2) (a b c : SignIdx) : Prop :=
  (∃ f ∈ fermi1, [a, b, c].Perm [.plus f.i, .plus f.i, .minus f.j] ∨
    [a, b, c].Perm [.minus f.i, .minus f.i, .plus f.j]) ∨
  (∃ f ∈ fermi2, [a, b, c].Perm [.plus f.i, .plus f.j, .minus f.k] ∨
    [a, b, c].Perm [.minus f.i, .minus f.j, .plus f.k])

/-- How many quanta two states differ by, over `n` modes. -/
def quantaApart (n : Nat) (a b : Nat → Nat) : Nat := ∑ i ∈ Finset.range n, ((b i : ℤ) - (a i : ℤ)).natAbs

/-- The number of modes in which two states differ. -/
def modesApart (n : Nat) (a b : Nat → Nat) : Nat := ((Finset.range n).filter fun i => a i ≠ b i).card

/-- The states of a Fermi polyad: both sides of every listed resonance, as quanta per mode. -/
def PolyadState (fermi1 : List Fermi1) (fermi2 : List Fermi2) (s : Nat → Nat) : Prop :=
  (∃ f ∈ fermi1, (s = fun m => if m = f.i then 2 else 0) ∨ (s = fun m => if m = f.j then 1 else 0)) ∨
  (∃ f ∈ fermi2, (s = fun m => if m = f.i ∨ m = f.j then 1 else 0) ∨ (s = fun m => if m = f.k then 1 else 0))

/-- Every mode named by a listed resonance exists. -/
def ResonancesBelow (n : Nat) (fermi1 : List Fermi1) (fermi2 : List Fermi2) : Prop :=
  (∀ f ∈ fermi1, f.i < n ∧ f.j < n) ∧ (∀ f ∈ fermi2, f.i < n ∧ f.j < n ∧ f.k < n)

end Verif
