import Verif.Model.Quartic
import Verif.Model.Normal

/-!
# Geometry processing (/repo/spectro/src/load.rs:30-142, 156-246)

The crate `symm` (unit conversion, principal axes, centre of mass, point group) is not in /repo. Its
results are inputs of the model; the few operations on its `Axis` and `Plane` types are given below.
-/

namespace Verif

/-- `symm::Axis`, used at /repo/spectro/src/load.rs:37 (crate not in /repo). -/
inductive Axis where
  | x | y | z
  deriving DecidableEq, Repr

/-- `axis as usize`, /repo/spectro/src/load.rs:54 (declaration order of the variants). -/
def Axis.idx : Axis → Nat
  | x => 0 | y => 1 | z => 2

/-- `Axis::not`, /repo/spectro/src/load.rs:62, 82: the two other axes (inferred from the use). -/
def Axis.others : Axis → Axis × Axis
  | x => (y, z) | y => (x, z) | z => (x, y)

/-- `symm::Plane`, a pair of axes, used at /repo/spectro/src/load.rs:38, 110 (`plane.0`). -/
structure Plane where
  a : Axis
  b : Axis
  deriving DecidableEq, Repr

/-- `Plane::perp`, /repo/spectro/src/load.rs:42: the axis not in the plane (inferred from the comment at
load.rs:41). -/
def Plane.perp (p : Plane) : Axis :=
  if p.a ≠ .x ∧ p.b ≠ .x then .x else if p.a ≠ .y ∧ p.b ≠ .y then .y else .z

/-- `plane ^ axis`, /repo/spectro/src/load.rs:44: the other axis of the plane (inferred from the comment at
load.rs:43). For an axis outside the plane the operation panics (`none`; the comment at load.rs:105-106
says the axis has to be in the plane). -/
def Plane.xor (p : Plane) (ax : Axis) : Option Axis :=
  if p.a = ax then some p.b else if p.b = ax then some p.a else none

/-- The variants of `symm::PointGroup` matched by `make_iatl`, /repo/spectro/src/load.rs:60-139, with the
fields it uses; `other` stands for all remaining variants. -/
inductive PointGroup where
  | c2h (axis : Axis)
  | c3 (axis : Axis)
  | c2v (axis : Axis) (planes : List Plane)
  | c3v (axis : Axis) (plane : Plane)
  | c5v (axis : Axis) (plane : Plane)
  | c6h (c6 : Axis) (sh : Plane)
  | d2h (axes : List Axis) (planes : List Plane)
  | d3h (c3 : Axis) (sv : Plane)
  | d5h (c5 : Axis) (sv : Plane)
  | other
  deriving DecidableEq, Repr

/-- What `make_iatl` returns (`iatl`) and sets (`axis_order`, and `axis` unless `none`: the cases C2h and C3
do not assign it), /repo/spectro/src/load.rs:30-142. -/
structure AlignInfo where
  iatl : Nat
  order : Nat
  axis : Option Axis
  deriving DecidableEq, Repr

variable {α : Type} [Arith α]

/-- `TOL`, /repo/spectro/src/load.rs:156. -/
def GEOM_TOL : α := Arith.lit 1e-6

/-- `ret.geom.atoms.iter().position(p)`, /repo/spectro/src/load.rs:48-55, 64-68, 84-88. -/
def positionAtom (natom : Nat) (p : Nat → Bool) : Option Nat := (List.range natom).find? p

/-- The nested function `helper` of `make_iatl`, /repo/spectro/src/load.rs:35-57 (`unwrap` on no match is
`none`). -/
def iatlHelper (natom : Nat) (pos : Nat → Nat → α) (axis : Axis) (plane : Plane) : Option Nat := do
  let p := plane.perp
  let o ← plane.xor axis
  positionAtom natom fun i =>
    Arith.lt (Arith.abs (pos i p.idx)) GEOM_TOL && Arith.lt GEOM_TOL (Arith.abs (pos i o.idx))

/-- The search used for C2h and C3, /repo/spectro/src/load.rs:64-68, 84-88. -/
def iatlOffAxis (natom : Nat) (pos : Nat → Nat → α) (axis : Axis) : Option Nat :=
  let axes := axis.others
  positionAtom natom fun i =>
    Arith.lt GEOM_TOL (Arith.abs (pos i axes.1.idx)) || Arith.lt GEOM_TOL (Arith.abs (pos i axes.2.idx))

/-- `make_iatl`, /repo/spectro/src/load.rs:30-142. The fixed-size arrays of axes and planes are lists. -/
def makeIatl (natom : Nat) (pos : Nat → Nat → α) (pg : PointGroup) : Option AlignInfo :=
  match pg with
  | .c2h axis => (iatlOffAxis natom pos axis).map fun i => ⟨i, 2, none⟩
  | .c3 axis => (iatlOffAxis natom pos axis).map fun i => ⟨i, 3, none⟩
  | .c2v axis planes => do
    let plane ← planes[0]?
    (iatlHelper natom pos axis plane).map fun i => ⟨i, 2, some axis⟩
  | .c3v axis plane => (iatlHelper natom pos axis plane).map fun i => ⟨i, 3, some axis⟩
  | .c5v axis plane => (iatlHelper natom pos plane.a plane).map fun i => ⟨i, 5, some axis⟩
  | .c6h c6 sh => (iatlHelper natom pos sh.a sh).map fun i => ⟨i, 6, some c6⟩
  | .d2h axes planes => do
    let axis ← axes[2]?
    let plane ← planes[1]?
    (iatlHelper natom pos axis plane).map fun i => ⟨i, 2, some axis⟩
  | .d3h c3 sv => (iatlHelper natom pos c3 sv).map fun i => ⟨i, 3, some c3⟩
  | .d5h c5 sv => (iatlHelper natom pos c5 sv).map fun i => ⟨i, 5, some c5⟩
  | .other => none

/-- The matrix `egr`, /repo/spectro/src/load.rs:196-203, from the `x` and `y` of the chosen atom. -/
def egrMat (x y : α) : Mat α := fun i j =>
  let c := Arith.sqrt (x * x + y * y)
  if i = 0 ∧ j = 0 then x / c
  else if i = 0 ∧ j = 1 then (-y) / c
  else if i = 1 ∧ j = 0 then y / c
  else if i = 1 ∧ j = 1 then x / c
  else if i = 2 ∧ j = 2 then Arith.lit 1.0
  else Arith.lit 0.0

/-- The loop over the atoms, /repo/spectro/src/load.rs:205-215: the new coordinates of atom `i` depend on
its old ones only. -/
def alignPos (egr : Mat α) (pos : Nat → Nat → α) : Nat → Nat → α := fun i c =>
  egr 0 c * pos i 0 + egr 1 c * pos i 1 + egr 2 c * pos i 2

/-- `btemp.transpose()` for `btemp = egr.transpose() * ret.axes.transpose()`,
/repo/spectro/src/load.rs:217-218. -/
def alignAxes (egr axes : Mat α) : Mat α :=
  transpose (matMul 3 (transpose egr) (transpose axes))

/-- `a == b` on `f64`, as used by the vector comparison at /repo/spectro/src/load.rs:231. -/
def feq (a b : α) : Bool := Arith.le a b && Arith.le b a

/-- The adjustment for linear molecules, /repo/spectro/src/load.rs:231-235. -/
def fixLinearAxes (linear : Bool) (axes : Mat α) : Mat α :=
  if linear && feq (Arith.abs (axes 0 2)) (Arith.lit 0.0) && feq (Arith.abs (axes 1 2)) (Arith.lit 0.0)
      && feq (Arith.abs (axes 2 2)) (Arith.lit 1.0) then
    fun i j => if j = 0 then Arith.lit (if i = 0 then 1.0 else 0.0)
      else if j = 1 then Arith.lit (if i = 1 then 1.0 else 0.0) else axes i j
  else axes

/-- `CONST`, /repo/spectro/src/consts.rs:31. -/
def ROT_CONST : α :=
  Arith.lit 1.0e2 * (PH * AVN) / (Arith.lit 8.0 * Arith.pi * Arith.pi * CL)

/-- `rotcon`, /repo/spectro/src/load.rs:167-170. -/
def makeRotcon (pr : Vec α) : Vec α := fun i =>
  if Arith.lt (Arith.lit 1e-2) (pr i) then ROT_CONST / pr i else Arith.lit 0.0

/-- The size fields of `Spectro`, /repo/spectro/src/lib.rs:120-127. -/
structure Sizes where
  natom : Nat
  n3n : Nat
  i3n3n : Nat
  i4n3n : Nat
  nvib : Nat
  i2vib : Nat
  i3vib : Nat
  i4vib : Nat
  deriving DecidableEq, Repr

/-- The size computation, /repo/spectro/src/load.rs:236-245. `n3n - 6` underflows (`none`) for fewer than two
atoms; overflow is not modelled. -/
def geomSizes (rotor : Rotor) (natoms : Nat) : Option Sizes :=
  let n3n := 3 * natoms
  if n3n < 6 then none else
  let nvib := n3n - 6 + (if rotor.spectroLinear then 1 else 0)
  (ioffChecked (nvib + 1)).map fun i2vib =>
    { natom := natoms
      n3n := n3n
      i3n3n := n3n * (n3n + 1) * (n3n + 2) / 6
      i4n3n := n3n * (n3n + 1) * (n3n + 2) * (n3n + 3) / 24
      nvib := nvib
      i2vib := i2vib
      i3vib := nvib * (nvib + 1) * (nvib + 2) / 6
      i4vib := nvib * (nvib + 1) * (nvib + 2) * (nvib + 3) / 24 }

/-- The fields `process_geom` sets, /repo/spectro/src/load.rs:161-246. -/
structure GeomOut (α : Type) where
  rotor : Rotor
  primat : Vec α
  rotcon : Vec α
  axes : Mat α
  pos : Nat → Nat → α
  iatom : Nat
  order : Nat
  axis : Option Axis
  sizes : Sizes

/-- `process_geom`, /repo/spectro/src/load.rs:161-246. Inputs from `symm`: the coordinates, moments, axes and
rotor returned by `to_angstrom`/`normalize` (163-164), the centre of mass (174), the answer of
`Rotor::is_linear` (`linear`; the crate is not in /repo) and the point group (192), as a function of the
centred coordinates. `iatom`, `axis_order` and `axis` keep their defaults (0, 0, unset) when the rotor is not
a symmetric top. -/
def processGeom (natoms : Nat) (pos : Nat → Nat → α) (pr : Vec α) (axes : Mat α) (rotor : Rotor)
    (linear : Bool) (com : Vec α) (pointGroup : (Nat → Nat → α) → PointGroup) : Option (GeomOut α) :=
  let rotcon := makeRotcon pr
  let pos : Nat → Nat → α := fun i c => pos i c + (-com c)
  if rotor.isSymTop && !linear then do
    let info ← makeIatl natoms pos (pointGroup pos)
    let egr := egrMat (pos info.iatl 0) (pos info.iatl 1)
    let sizes ← geomSizes rotor natoms
    return { rotor := rotor, primat := pr, rotcon := rotcon
             axes := fixLinearAxes linear (alignAxes egr axes)
             pos := alignPos egr pos
             iatom := info.iatl, order := info.order, axis := info.axis, sizes := sizes }
  else do
    let sizes ← geomSizes rotor natoms
    return { rotor := rotor, primat := pr, rotcon := rotcon, axes := fixLinearAxes linear axes, pos := pos
             iatom := 0, order := 0, axis := none, sizes := sizes }

end Verif
