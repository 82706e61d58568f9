import Mathlib.Data.Nat.Choose.Basic

/-!
Specification for C04, C05: a force-constant file lists the values for `i ≥ j ≥ k (≥ l)` with `i`
slowest and the last index fastest.  The position of a tuple is the number of tuples before it.
-/

namespace Verif

/-- position of `(i, j, k)`, `i ≥ j ≥ k`, in the file -/
def filePos3 (i j k : Nat) : Nat := Nat.choose (i + 2) 3 + Nat.choose (j + 1) 2 + k

/-- position of `(i, j, k, l)`, `i ≥ j ≥ k ≥ l`, in the file -/
def filePos4 (i j k l : Nat) : Nat :=
  Nat.choose (i + 3) 4 + Nat.choose (j + 2) 3 + Nat.choose (k + 1) 2 + l

end Verif
