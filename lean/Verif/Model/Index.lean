import Verif.Arith

/-!
# Packed index formulas (/repo/spectro/src/utils.rs:98-130, f3qcm.rs, f4qcm.rs)
-/

namespace Verif

/-- `sort_indices`, /repo/spectro/src/utils.rs:99-102 (`<[usize]>::sort`). The fixed-size array
is a list. -/
def sortIndices (l : List Nat) : List Nat := l.mergeSort (· ≤ ·)

/-- `find3`, /repo/spectro/src/utils.rs:111-114. The arguments are incremented before use, so
none of the `usize` subtractions underflows; `usize` overflow is not modelled. -/
def find3 (i j k : Nat) : Nat :=
  match sortIndices [i + 1, j + 1, k + 1] with
  | [i, j, k] => i + (j - 1) * j / 2 + (k - 1) * k * (k + 1) / 6 - 1
  | _ => 0

/-- `find4`, /repo/spectro/src/utils.rs:119-125. Same remarks as for `find3`. -/
def find4 (i j k l : Nat) : Nat :=
  match sortIndices [i + 1, j + 1, k + 1, l + 1] with
  | [i, j, k, l] =>
    i + (j - 1) * j / 2 + (k - 1) * k * (k + 1) / 6 + (l - 1) * l * (l + 1) * (l + 2) / 24 - 1
  | _ => 0

/-- `ioff`, /repo/spectro/src/utils.rs:128-130, for arguments where it does not underflow. -/
def ioff (n : Nat) : Nat := ((n - 1) * n) / 2

/-- `ioff` with the `usize` underflow of `n - 1` at `n = 0` as an error (debug build),
/repo/spectro/src/utils.rs:128-130. -/
def ioffChecked (n : Nat) : Option Nat := if n = 0 then none else some (ioff n)

/-- The index of an unordered pair, `ioff(max(i, j) + 1) + min(i, j)`,
/repo/spectro/src/resonance.rs:229, utils.rs:444, lib.rs:203. -/
def pairIdx (i j : Nat) : Nat := ioff (max i j + 1) + min i j

/-- `F3qcm`, /repo/spectro/src/f3qcm.rs:8, a `Vec<f64>`. -/
abbrev F3qcm (α : Type) := List α

/-- `Index<(usize, usize, usize)> for F3qcm`, /repo/spectro/src/f3qcm.rs:24-32:
`self.0[find3(i, j, k)]`; out of bounds is `none`. -/
def F3qcm.get {α : Type} (f : F3qcm α) (i j k : Nat) : Option α := f[find3 i j k]?

/-- `F4qcm`, /repo/spectro/src/f4qcm.rs:11, a `Vec<f64>`. -/
abbrev F4qcm (α : Type) := List α

/-- `Index<(usize, usize, usize, usize)> for F4qcm`, /repo/spectro/src/f4qcm.rs:26-34: out of bounds is
`none`. -/
def F4qcm.get {α : Type} (f : F4qcm α) (i j k l : Nat) : Option α := f[find4 i j k l]?

/-- `IndexMut<(usize, usize, usize, usize)> for F4qcm`, /repo/spectro/src/f4qcm.rs:36-45:
`f[(i,j,k,l)] = v`; out of bounds is `none`. -/
def F4qcm.put {α : Type} (f : F4qcm α) (i j k l : Nat) (v : α) : Option (F4qcm α) :=
  if find4 i j k l < f.length then some (f.set (find4 i j k l) v) else none

end Verif
