import Verif.Model.Mode
import Verif.Model.Rotate

/-!
# Alignment of degenerate modes (/repo/spectro/src/lib.rs:520-730)
-/

namespace Verif

variable {α : Type} [Arith α]

/-- `TOLER`, /repo/spectro/src/lib.rs:536. -/
def TOLER : α := Arith.lit 1e-5

/-- `FRAC_PI_2`, /repo/spectro/src/lib.rs:5, 569, 576, 589, modelled as `PI / 2`. -/
def FRAC_PI_2 : α := Arith.pi / Arith.lit 2

/-- The fields of `Spectro` used by `bdegnl`, /repo/spectro/src/lib.rs:529-730. `linear` is
`self.rotor.is_linear()`; `buddy` is `buddies[self.iatom]` (lines 632-636), computed by the crate `symm` from
the geometry. -/
structure AlignCfg where
  linear : Bool
  nvib : Nat
  n3n : Nat
  natom : Nat
  iatom : Nat
  axisOrder : Nat
  buddy : Option Nat

/-- `tol`, /repo/spectro/src/lib.rs:531. -/
def alignTol (linear : Bool) : α := if linear then Arith.lit 1.0 else Arith.lit 0.05

/-- `lxm[(r, m)].abs() < TOLER`, /repo/spectro/src/lib.rs:545-560. -/
def tiny (lxm : Mat α) (r m : Nat) : Bool := Arith.lt (Arith.abs (lxm r m)) TOLER

/-- `izero == 4`, /repo/spectro/src/lib.rs:541-563: all four tested components are tiny. -/
def allTiny (ncomp1 imode1 imode2 : Nat) (lxm : Mat α) : Bool :=
  tiny lxm ncomp1 imode1 && tiny lxm ncomp1 imode2 && tiny lxm (ncomp1 + 1) imode1 &&
    tiny lxm (ncomp1 + 1) imode2

/-- The angle `theta`, /repo/spectro/src/lib.rs:541-603; the `todo!` and the panic are `none`. -/
def alignAngle (linear : Bool) (ncomp1 imode1 imode2 : Nat) (lxm : Mat α) : Option α :=
  let ncomp2 := ncomp1 + 1
  if !allTiny ncomp1 imode1 imode2 lxm then
    if !tiny lxm ncomp1 imode1 then some (Arith.atan (lxm ncomp1 imode2 / lxm ncomp1 imode1))
    else if !tiny lxm ncomp1 imode2 then some FRAC_PI_2
    else if !tiny lxm ncomp2 imode2 then
      some (Arith.atan (Arith.lit (-1.0) * lxm ncomp2 imode1 / lxm ncomp1 imode2))
    else some FRAC_PI_2
  else if linear then none
  else
    let ncomp3 := ncomp1 + 2
    if Arith.lt TOLER (Arith.abs (lxm ncomp3 imode2)) then
      some (Arith.atan (Arith.lit (-1.0) * lxm ncomp3 imode1 / lxm ncomp3 imode2))
    else if Arith.lt TOLER (Arith.abs (lxm ncomp3 imode1)) then some FRAC_PI_2
    else none

/-- The rotation loop, /repo/spectro/src/lib.rs:605-612. -/
def rotateCols (n3n imode1 imode2 : Nat) (c s : α) (lxm : Mat α) : Mat α :=
  (List.range n3n).foldl (fun lxm i =>
    let temp := c * lxm i imode1 + s * lxm i imode2
    let lxm := Mat.set lxm i imode2 (c * lxm i imode2 - s * lxm i imode1)
    Mat.set lxm i imode1 temp) lxm

/-- `for i in 0..self.n3n { lxm[(i, imode2)] *= -1.0; }`, /repo/spectro/src/lib.rs:622-624, 684-686,
706-708. -/
def negateCol (n3n imode2 : Nat) (lxm : Mat α) : Mat α :=
  (List.range n3n).foldl (fun lxm i => Mat.set lxm i imode2 (lxm i imode2 * Arith.lit (-1.0))) lxm

/-- State of the loop over `is`, /repo/spectro/src/lib.rs:645-650. -/
structure SignState (α : Type) where
  s : α
  iflag : Bool
  lxm : Mat α

/-- One iteration of the loop over `is`, /repo/spectro/src/lib.rs:650-711. `is2 >= nabs` compares
`2 * is` with the axis order. -/
def signStep (cfg : AlignCfg) (four : Bool) (iatom2 imode1 imode2 : Nat) (st : SignState α) (is : Nat) :
    SignState α :=
  let nabs : α := ofNat cfg.axisOrder
  let alpha := (Arith.lit (-2.0) * Arith.pi) / nabs
  let ncomp1 := 3 * cfg.iatom
  let ncomp21 := 3 * iatom2
  let ncomp22 := 3 * iatom2 + 1
  let ncomp23 := 3 * iatom2 + 2
  let s := st.s + Arith.lit 1.0
  let lxm := st.lxm
  if cfg.axisOrder ≤ 2 * is then { st with s := s }
  else if st.iflag then { st with s := s }
  else if !four then
    let t : α × α × α :=
      if Arith.lt TOLER (Arith.abs (Arith.cos alpha)) then
        let test := Arith.cos alpha * lxm ncomp1 imode1 - Arith.cos (alpha * s) * lxm ncomp21 imode1
        let test2 := lxm ncomp21 imode2 * Arith.sin (-alpha * s)
        (test, test2, (Arith.abs test - Arith.abs test2) / lxm ncomp1 imode1)
      else
        let test := Arith.sin alpha * lxm ncomp1 imode1 - Arith.cos (alpha * s) * lxm ncomp22 imode1
        let test2 := lxm ncomp22 imode2 * Arith.sin (-alpha * s)
        (test, test2, (Arith.abs test - Arith.abs test2) / lxm ncomp1 imode1)
    if Arith.lt (Arith.abs t.2.2) (Arith.lit 0.001) then
      ⟨s, true, if Arith.lt (t.1 * t.2.1) (Arith.lit 0.0) then negateCol cfg.n3n imode2 lxm else lxm⟩
    else { st with s := s }
  else
    let ncomp3 := ncomp1 + 2
    let test := lxm ncomp3 imode2 - Arith.cos (alpha * s) * lxm ncomp23 imode2
    let test2 := Arith.lit (-1.0) * lxm ncomp23 imode1 * Arith.sin (-alpha * s)
    let test3 := (Arith.abs test - Arith.abs test2) / lxm ncomp3 imode2
    if Arith.lt (Arith.abs test3) (Arith.lit 0.001) && Arith.lt (test * test2) (Arith.lit 0.0) then
      ⟨s, st.iflag, negateCol cfg.n3n imode2 lxm⟩
    else { st with s := s }

/-- The sign check after the rotation, /repo/spectro/src/lib.rs:620-712. A missing symmetry-related atom
panics (`none`). -/
def fixSign (cfg : AlignCfg) (four : Bool) (imode1 imode2 : Nat) (lxm : Mat α) : Option (Mat α) :=
  if cfg.linear then
    let ncomp1 := 3 * cfg.iatom
    some (if Arith.lt (Arith.lit 0.0) (lxm ncomp1 imode1 * lxm (ncomp1 + 1) imode2) then
      negateCol cfg.n3n imode2 lxm else lxm)
  else do
    let iatom2 ← cfg.buddy
    return ((List.range 5).foldl (signStep cfg four iatom2 imode1 imode2)
      ⟨Arith.lit 0.0, false, lxm⟩).lxm

/-- The treatment of one near-degenerate pair up to the update of `lx`, /repo/spectro/src/lib.rs:535-712. -/
def alignLxm (cfg : AlignCfg) (imode1 imode2 : Nat) (lxm : Mat α) : Option (Mat α) := do
  let ncomp1 := 3 * cfg.iatom
  let theta ← alignAngle cfg.linear ncomp1 imode1 imode2 lxm
  let four := allTiny ncomp1 imode1 imode2 lxm
  fixSign cfg four imode1 imode2
    (rotateCols cfg.n3n imode1 imode2 (Arith.cos theta) (Arith.sin theta) lxm)

/-- The update of the two columns of `lx`, /repo/spectro/src/lib.rs:714-726. -/
def rescaleLx (natom : Nat) (w : Vec α) (imode1 imode2 : Nat) (lxm lx : Mat α) : Mat α :=
  [imode1, imode2].foldl (fun lx ijj => (pairs natom 3).foldl (fun lx p =>
    let vmass := Arith.lit 1.0 / Arith.sqrt (w p.1)
    let ii := 3 * p.1 + p.2
    Mat.set lx ii ijj (lxm ii ijj * vmass)) lx) lx

/-- The body of the double loop, /repo/spectro/src/lib.rs:534-727. -/
def alignStep (cfg : AlignCfg) (freq w : Vec α) (st : Mat α × Mat α) (p : Nat × Nat) :
    Option (Mat α × Mat α) :=
  if close (freq p.1) (freq p.2) (alignTol cfg.linear) then do
    let lxm ← alignLxm cfg p.1 p.2 st.1
    return (lxm, rescaleLx cfg.natom w p.1 p.2 lxm st.2)
  else some st

/-- `bdegnl`, /repo/spectro/src/lib.rs:529-730; `self.nvib - 1` underflows (`none`) without vibrations. The
result is the pair `(lxm, lx)`. -/
def bdegnl (cfg : AlignCfg) (freq w : Vec α) (lxm lx : Mat α) : Option (Mat α × Mat α) :=
  if cfg.nvib = 0 then none
  else (incPairs cfg.nvib).foldlM (alignStep cfg freq w) (lxm, lx)

end Verif
