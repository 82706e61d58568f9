import Verif.Arith

/-!
# Rotating force constants to the principal axes (/repo/spectro/src/lib.rs:361-478)
-/

namespace Verif

variable {α : Type} [Arith α]

/-- Product of two square matrices of size `n` (nalgebra `*`, e.g. /repo/spectro/src/lib.rs:370). The order in which
nalgebra adds the terms is not modelled. -/
def matMul (n : Nat) (a b : Mat α) : Mat α := fun i j => sumTo n fun k => a i k * b k j

/-- nalgebra's `transpose` (e.g. /repo/spectro/src/lib.rs:370). -/
def transpose (a : Mat α) : Mat α := fun i j => a j i

/-- `self.axes.transpose() * a * self.axes`, /repo/spectro/src/lib.rs:370, 396, 444, 467. -/
def sandwich (axes a : Mat α) : Mat α := matMul 3 (matMul 3 (transpose axes) a) axes

/-- The index pairs of `for i in 0..n { for j in 0..m { .. }}`, in order (e.g. /repo/spectro/src/lib.rs:365-366). -/
def pairs (n m : Nat) : List (Nat × Nat) :=
  (List.range n).flatMap fun i => (List.range m).map fun j => (i, j)

/-- The index triples of three nested loops `0..n`, `0..m`, `0..k`, in order (e.g. /repo/spectro/src/lib.rs:385-388). -/
def triples (n m k : Nat) : List (Nat × Nat × Nat) :=
  (List.range n).flatMap fun i => (pairs m k).map fun p => (i, p)

/-- The index quadruples of four nested loops, in order (e.g. /repo/spectro/src/lib.rs:432-436). -/
def quads (n m k l : Nat) : List (Nat × Nat × Nat × Nat) :=
  (List.range n).flatMap fun i => (triples m k l).map fun p => (i, p)

/-- One iteration of the loop in `rot2nd` for the atom pair `(i, j)`,
/repo/spectro/src/lib.rs:369-372: view of the 3x3 block at `(ia, ib)`, rotation, copy into the
result. The source's `ia`, `ib` (multiples of 3 from `step_by(3)`) are `3 * i`, `3 * j`. -/
def rot2Step (axes fx : Mat α) (ret : Mat α) (p : Nat × Nat) : Mat α :=
  let ia := 3 * p.1
  let ib := 3 * p.2
  let a : Mat α := fun ii jj => fx (ia + ii) (ib + jj)
  let temp2 := sandwich axes a
  (pairs 3 3).foldl (fun r q => Mat.set r (ia + q.1) (ib + q.2) (temp2 q.1 q.2)) ret

/-- `rot2nd`, /repo/spectro/src/lib.rs:361-376, for `natom` atoms. -/
def rot2nd (natom : Nat) (axes fx : Mat α) : Mat α :=
  (pairs natom natom).foldl (rot2Step axes fx) (fun _ _ => Arith.lit 0)

/-- One iteration of the first loop nest of `rot3rd`, /repo/spectro/src/lib.rs:387-402. -/
def rot3Step1 (axes : Mat α) (f3x : T3 α) (ret : T3 α) (p : Nat × Nat × Nat) : T3 α :=
  let i := p.1
  let ib := p.2.1 * 3
  let ic := p.2.2 * 3
  let a : Mat α := fun jj kk => f3x (ib + jj) (ic + kk) i
  let temp2 := sandwich axes a
  (pairs 3 3).foldl (fun r q => T3.set r (ib + q.1) (ic + q.2) i (temp2 q.1 q.2)) ret

/-- One iteration of the second, in-place loop nest of `rot3rd`,
/repo/spectro/src/lib.rs:409-419. -/
def rot3Step2 (axes : Mat α) (ret : T3 α) (p : Nat × Nat × Nat) : T3 α :=
  let j := p.1
  let k := p.2.1
  let ia := p.2.2 * 3
  let val : Vec α := fun ii =>
    ret j k ia * axes 0 ii + ret j k (ia + 1) * axes 1 ii + ret j k (ia + 2) * axes 2 ii
  (List.range 3).foldl (fun r ii => T3.set r j k (ia + ii) (val ii)) ret

/-- `rot3rd`, /repo/spectro/src/lib.rs:380-424. -/
def rot3rd (n3n natom : Nat) (axes : Mat α) (f3x : T3 α) : T3 α :=
  let ret := (triples n3n natom natom).foldl (rot3Step1 axes f3x) (fun _ _ _ => Arith.lit 0)
  (triples n3n n3n natom).foldl (rot3Step2 axes) ret

/-- One iteration of the first loop nest of `rot4th`, /repo/spectro/src/lib.rs:435-449. -/
def rot4Step1 (axes : Mat α) (f4x : T4 α) (ret : T4 α) (p : Nat × Nat × Nat × Nat) : T4 α :=
  let i := p.1
  let j := p.2.1
  let ic := p.2.2.1 * 3
  let id := p.2.2.2 * 3
  let a : Mat α := fun kk ll => f4x i j (ic + kk) (id + ll)
  let temp2 := sandwich axes a
  (pairs 3 3).foldl (fun r q => T4.set r i j (ic + q.1) (id + q.2) (temp2 q.1 q.2)) ret

/-- One iteration of the second, in-place loop nest of `rot4th`,
/repo/spectro/src/lib.rs:458-472. -/
def rot4Step2 (axes : Mat α) (ret : T4 α) (p : Nat × Nat × Nat × Nat) : T4 α :=
  let k := p.1
  let l := p.2.1
  let ia := p.2.2.1 * 3
  let ib := p.2.2.2 * 3
  let a : Mat α := fun ii jj => ret (ia + ii) (ib + jj) k l
  let temp2 := sandwich axes a
  (pairs 3 3).foldl (fun r q => T4.set r (ia + q.1) (ib + q.2) k l (temp2 q.1 q.2)) ret

/-- `rot4th`, /repo/spectro/src/lib.rs:428-478. -/
def rot4th (n3n natom : Nat) (axes : Mat α) (f4x : T4 α) : T4 α :=
  let ret := (quads n3n n3n natom natom).foldl (rot4Step1 axes f4x) (fun _ _ _ _ => Arith.lit 0)
  (quads n3n n3n natom natom).foldl (rot4Step2 axes) ret

end Verif
