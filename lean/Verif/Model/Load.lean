import Verif.Model.Index

/-!
# Loading force constants (/repo/spectro/src/load.rs:380-504)
-/

namespace Verif

variable {α : Type} [Arith α]

/-- The iteration order of `for i in 0..n { for j in 0..=i { for k in 0..=j { .. }}}`,
/repo/spectro/src/load.rs:427-429 and utils.rs:183-187. -/
def nest3 (n : Nat) : List (Nat × Nat × Nat) :=
  (List.range n).flatMap fun i => (List.range (i + 1)).flatMap fun j =>
    (List.range (j + 1)).map fun k => (i, j, k)

/-- The iteration order of the four nested loops at /repo/spectro/src/load.rs:469-472. -/
def nest4 (n : Nat) : List (Nat × Nat × Nat × Nat) :=
  (List.range n).flatMap fun i => (List.range (i + 1)).flatMap fun j =>
    (List.range (j + 1)).flatMap fun k => (List.range (k + 1)).map fun l => (i, j, k, l)

/-- Selection of the values with or without the two-value header, /repo/spectro/src/load.rs:416-426
and 457-467 (also 389-399): `fl == want` takes all values, otherwise `fl - 2 == want` (underflow when
`fl < 2`) takes `[2..]`, otherwise panic. Every panic is `none`. -/
def stripHeader {β : Type} (want : Nat) (f : List β) : Option (List β) :=
  if f.length = want then some f
  else if f.length < 2 then none
  else if f.length - 2 = want then some (f.drop 2)
  else none

/-- The six assignments of the loop body, /repo/spectro/src/load.rs:431-436. -/
def setPerms3 (f3x : T3 α) (iabc jabc kabc : Nat) (val : α) : T3 α :=
  let f3x := f3x.set iabc jabc kabc val
  let f3x := f3x.set iabc kabc jabc val
  let f3x := f3x.set jabc iabc kabc val
  let f3x := f3x.set jabc kabc iabc val
  let f3x := f3x.set kabc iabc jabc val
  f3x.set kabc jabc iabc val

/-- One iteration of the loop in `new_fc3`, /repo/spectro/src/load.rs:430-437; the state is
`(f3x, labc)`, reading past the end of `f33` is `none`. -/
def fc3Step (f33 : List α) (s : T3 α × Nat) (ix : Nat × Nat × Nat) : Option (T3 α × Nat) := do
  let val ← f33[s.2]?
  return (setPerms3 s.1 ix.1 ix.2.1 ix.2.2 val, s.2 + 1)

/-- `new_fc3`, /repo/spectro/src/load.rs:413-442. -/
def newFc3 (n3n : Nat) (f33 : List α) : Option (T3 α) := do
  let want := n3n * (n3n + 1) * (n3n + 2) / 6
  let f33 ← stripHeader want f33
  let r ← (nest3 n3n).foldlM (fc3Step f33) (fun _ _ _ => Arith.lit 0, 0)
  return r.1

/-- The twenty-four assignments of the loop body, /repo/spectro/src/load.rs:474-497. -/
def setPerms4 (f4x : T4 α) (iabc jabc kabc labc : Nat) (val : α) : T4 α :=
  let f4x := f4x.set iabc jabc kabc labc val
  let f4x := f4x.set iabc jabc labc kabc val
  let f4x := f4x.set iabc kabc jabc labc val
  let f4x := f4x.set iabc kabc labc jabc val
  let f4x := f4x.set iabc labc jabc kabc val
  let f4x := f4x.set iabc labc kabc jabc val
  let f4x := f4x.set jabc iabc kabc labc val
  let f4x := f4x.set jabc iabc labc kabc val
  let f4x := f4x.set jabc kabc iabc labc val
  let f4x := f4x.set jabc kabc labc iabc val
  let f4x := f4x.set jabc labc iabc kabc val
  let f4x := f4x.set jabc labc kabc iabc val
  let f4x := f4x.set kabc iabc jabc labc val
  let f4x := f4x.set kabc iabc labc jabc val
  let f4x := f4x.set kabc jabc iabc labc val
  let f4x := f4x.set kabc jabc labc iabc val
  let f4x := f4x.set kabc labc iabc jabc val
  let f4x := f4x.set kabc labc jabc iabc val
  let f4x := f4x.set labc iabc jabc kabc val
  let f4x := f4x.set labc iabc kabc jabc val
  let f4x := f4x.set labc jabc iabc kabc val
  let f4x := f4x.set labc jabc kabc iabc val
  let f4x := f4x.set labc kabc iabc jabc val
  f4x.set labc kabc jabc iabc val

/-- One iteration of the loop in `new_fc4`, /repo/spectro/src/load.rs:473-498. -/
def fc4Step (f44 : List α) (s : T4 α × Nat) (ix : Nat × Nat × Nat × Nat) : Option (T4 α × Nat) := do
  let val ← f44[s.2]?
  return (setPerms4 s.1 ix.1 ix.2.1 ix.2.2.1 ix.2.2.2 val, s.2 + 1)

/-- `new_fc4`, /repo/spectro/src/load.rs:455-504. -/
def newFc4 (n3n : Nat) (f44 : List α) : Option (T4 α) := do
  let want := n3n * (n3n + 1) * (n3n + 2) * (n3n + 3) / 24
  let f44 ← stripHeader want f44
  let r ← (nest4 n3n).foldlM (fc4Step f44) (fun _ _ _ _ => Arith.lit 0, 0)
  return r.1

/-- A matrix read from a list of numbers: `m i j` is `m[(i, j)]`, `none` outside the shape
(nalgebra's `DMatrix`, /repo/spectro/src/lib.rs:60). -/
abbrev DMat (α : Type) := Nat → Nat → Option α

/-- `Dmat::from_iterator(n, n, data)`, /repo/spectro/src/load.rs:391: nalgebra fills the matrix in
column-major order. -/
def fromIterator {α : Type} (n : Nat) (data : List α) : DMat α :=
  fun i j => if i < n ∧ j < n then data[j * n + i]? else none

/-- `Dmat::from_row_slice(n, n, data)`, /repo/spectro/src/load.rs:393: nalgebra fills the matrix in
row-major order. -/
def fromRowSlice {α : Type} (n : Nat) (data : List α) : DMat α :=
  fun i j => if i < n ∧ j < n then data[i * n + j]? else none

/-- `load_fc2`, /repo/spectro/src/load.rs:380-400, from the parsed numbers of the file (reading and
parsing the file are not modelled). `dl - 2` underflows for `dl < 2`; all panics are `none`. -/
def loadFc2 {α : Type} (n3n : Nat) (data : List α) : Option (DMat α) :=
  if data.length = n3n * n3n then some (fromIterator n3n data)
  else if data.length < 2 then none
  else if data.length - 2 = n3n * n3n then some (fromRowSlice n3n (data.drop 2))
  else none

end Verif
