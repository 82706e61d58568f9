import Verif.Model.Mode
import Verif.Model.State

/-!
# Resonance detection (/repo/spectro/src/rotor.rs, resonance.rs)
-/

namespace Verif

variable {α : Type} [Arith α]

/-- `Coriolis`, /repo/spectro/src/resonance.rs:40-44; the axis is its number (resonance.rs:21-26). -/
structure Coriolis where
  i : Nat
  j : Nat
  axis : Nat
  deriving DecidableEq, Repr

/-- `Fermi1`, /repo/spectro/src/resonance.rs:80-83. -/
structure Fermi1 where
  i : Nat
  j : Nat
  deriving DecidableEq, Repr

/-- `Fermi2`, /repo/spectro/src/resonance.rs:93-97. -/
structure Fermi2 where
  i : Nat
  j : Nat
  k : Nat
  deriving DecidableEq, Repr

/-- `Darling`, /repo/spectro/src/resonance.rs:113-116. -/
structure Darling where
  i : Nat
  j : Nat
  deriving DecidableEq, Repr

/-- `F3TOL`, /repo/spectro/src/rotor.rs:12. -/
def F3TOL : α := Arith.lit 10.0
/-- `FTOL1`, /repo/spectro/src/rotor.rs:15. -/
def FTOL1 : α := Arith.lit 200.0
/-- `DLTOL`, /repo/spectro/src/rotor.rs:18. -/
def DLTOL : α := Arith.lit 1000.0
/-- `DFTOL`, /repo/spectro/src/rotor.rs:19. -/
def DFTOL : α := Arith.lit 200.0
/-- `DDTOL`, /repo/spectro/src/rotor.rs:22. -/
def DDTOL : α := Arith.lit 300.0
/-- `CTOL`, /repo/spectro/src/rotor.rs:32. -/
def CTOL : α := Arith.lit 200.0
/-- `ZTOL`, /repo/spectro/src/rotor.rs:33. -/
def ZTOL : α := Arith.lit 0.25

/-- `if diff.abs() <= CTOL && zmat[(i, j, z)].abs() >= ZTOL { ret.push(Coriolis::new(i, j, axis)) }`,
the test made at /repo/spectro/src/rotor.rs:62-65, 70-78, 89-92, 97-105, 113-121, 131-137 (some of them
nest the two conditions). The pushes are returned as a list of length 0 or 1. -/
def corTest (freq : Vec α) (zmat : T3 α) (i j z axis : Nat) : List Coriolis :=
  if Arith.le (Arith.abs (freq i - freq j)) CTOL && Arith.le ZTOL (Arith.abs (zmat i j z)) then
    [⟨i, j, axis⟩] else []

/-- The names given to the axes `(ia, ib, ic) = (2, 1, 0)`, /repo/spectro/src/rotor.rs:45-54. -/
def corAxes (rotor : Rotor) : Nat × Nat × Nat :=
  if rotor = .prolateSymmTop then (0, 2, 1) else (2, 1, 0)

/-- The symmetric-top branch of `coriolis`, /repo/spectro/src/rotor.rs:45-123. -/
def coriolisSym (rotor : Rotor) (i1mode : List Nat) (i2mode : List (Nat × Nat)) (freq : Vec α)
    (zmat : T3 α) : List Coriolis :=
  let n1dm := i1mode.length
  let n2dm := i2mode.length
  let (a, b, c) := corAxes rotor
  ((List.range n1dm).flatMap fun ii =>
    let i := i1mode.getD ii 0
    ((List.range n1dm).flatMap fun jj =>
      if ii = jj then [] else corTest freq zmat i (i1mode.getD jj 0) 2 a) ++
    ((List.range n2dm).flatMap fun jj =>
      let j := (i2mode.getD jj (0, 0)).1
      corTest freq zmat i j 1 b ++ corTest freq zmat i j 0 c)) ++
  ((List.range n2dm).flatMap fun ii =>
    let i := (i2mode.getD ii (0, 0)).1
    ((List.range n2dm).flatMap fun jj =>
      if ii = jj then [] else corTest freq zmat i (i2mode.getD jj (0, 0)).2 2 a) ++
    ((List.range n1dm).flatMap fun jj =>
      let j := i1mode.getD jj 0
      corTest freq zmat i j 1 b ++ corTest freq zmat i j 0 c) ++
    ((List.range n2dm).flatMap fun jj =>
      if ii = jj then [] else
        let j := (i2mode.getD jj (0, 0)).1
        corTest freq zmat i j 1 b ++ corTest freq zmat i j 0 c))

/-- The asymmetric-top branch of `coriolis`, /repo/spectro/src/rotor.rs:126-140. -/
def coriolisAsym (i1mode : List Nat) (freq : Vec α) (zmat : T3 α) : List Coriolis :=
  (List.range i1mode.length).flatMap fun ii =>
    (List.range ii).flatMap fun jj =>
      (List.range 3).flatMap fun z =>
        corTest freq zmat (i1mode.getD ii 0) (i1mode.getD jj 0) z z

/-- `coriolis`, /repo/spectro/src/rotor.rs:24-145; `todo!` and `unset_rotor!` panic (`none`). -/
def coriolis (rotor : Rotor) (modes : List Mode) (freq : Vec α) (zmat : T3 α) :
    Option (List Coriolis) :=
  let p := Mode.partition modes
  match rotor with
  | .diatomic => some []
  | .sphericalTop => none
  | .oblateSymmTop | .prolateSymmTop | .linear => some (coriolisSym rotor p.1 p.2.1 freq zmat)
  | .asymmTop => some (coriolisAsym p.1 freq zmat)
  | .none => none

/-- `darling_test`, /repo/spectro/src/rotor.rs:370-375. -/
def darlingTest (freq : Vec α) (i j : Nat) : List Darling :=
  if Arith.le (Arith.abs (Arith.lit 2.0 * freq i - Arith.lit 2.0 * freq j)) DDTOL then [⟨i, j⟩]
  else []

/-- The loop `for ii in 1..n { .. for jj in 0..ii { .. }}` over a mode list,
/repo/spectro/src/rotor.rs:168-174, 177-183. -/
def darlingLower (l : List Nat) (freq : Vec α) : List Darling :=
  (List.range' 1 (l.length - 1)).flatMap fun ii => (List.range ii).flatMap fun jj =>
    darlingTest freq (l.getD ii 0) (l.getD jj 0)

/-- `darling`, /repo/spectro/src/rotor.rs:147-188. -/
def darling (rotor : Rotor) (modes : List Mode) (freq : Vec α) : Option (List Darling) :=
  let p := Mode.partition modes
  match rotor with
  | .diatomic => some []
  | .sphericalTop => none
  | .oblateSymmTop | .prolateSymmTop | .linear =>
    some <| ((List.range' 1 (p.1.length - 1)).flatMap fun ii =>
      ((List.range ii).flatMap fun jj => darlingTest freq (p.1.getD ii 0) (p.1.getD jj 0)) ++
      ((List.range p.2.1.length).flatMap fun jj =>
        darlingTest freq (p.1.getD ii 0) (p.2.1.getD jj (0, 0)).1)) ++
      darlingLower (p.2.1.map (·.1)) freq
  | .asymmTop => some (darlingLower p.1 freq)
  | .none => none

/-- `ferm1_test`, /repo/spectro/src/rotor.rs:357-368. `f3 i j k` is `f3qcm[(i, j, k)]` (the packed table,
read within bounds, see C01 and C13). -/
def ferm1Test (freq : Vec α) (i j : Nat) (f3 : T3 α) : List Fermi1 :=
  if Arith.le (Arith.abs (Arith.lit 2.0 * freq i - freq j)) FTOL1 &&
      Arith.le F3TOL (Arith.abs (f3 i i j)) then [⟨i, j⟩] else []

/-- `fermi1`, /repo/spectro/src/rotor.rs:190-229. -/
def fermi1 (rotor : Rotor) (modes : List Mode) (freq : Vec α) (f3 : T3 α) : Option (List Fermi1) :=
  let p := Mode.partition modes
  match rotor with
  | .diatomic => some []
  | .sphericalTop => none
  | .oblateSymmTop | .prolateSymmTop | .linear =>
    some <| (p.1.flatMap fun i => p.1.flatMap fun j => ferm1Test freq i j f3) ++
      (p.2.1.flatMap fun i =>
        (p.1.flatMap fun j => ferm1Test freq i.1 j f3) ++
        (p.2.1.flatMap fun j => ferm1Test freq i.1 j.1 f3))
  | .asymmTop => some (p.1.flatMap fun i => p.1.flatMap fun j => ferm1Test freq i j f3)
  | .none => none

/-- `aminjm`, /repo/spectro/src/rotor.rs:400-404: the last element after sorting, i.e. the maximum of the
three (the name notwithstanding). The stable sort of three numbers is written as `mergeSort`; NaN panics
in the source and is outside the model. -/
def aminjm (diff1 diff2 diff3 : α) : α :=
  ([diff1, diff2, diff3].mergeSort fun a b => !Arith.lt b a).getD 2 diff3

/-- `ferm2_test`, /repo/spectro/src/rotor.rs:377-398. -/
def ferm2Test (freq : Vec α) (i j k : Nat) (f3 : T3 α) : List Fermi2 :=
  let diff1 := freq i - freq j - freq k
  let diff2 := -freq i + freq j - freq k
  let diff3 := -freq i - freq j + freq k
  let diff4 := freq i + freq j + freq k
  let delta := diff1 * diff2 * diff3 * diff4
  let dalet := aminjm diff1 diff2 diff3
  if Arith.le F3TOL (Arith.abs (f3 i j k)) &&
      (Arith.le (Arith.abs delta) DLTOL || Arith.le (Arith.abs dalet) DFTOL) then
    [⟨i, j, k⟩] else []

/-- The inline test of the last loop nest of `fermi2`, /repo/spectro/src/rotor.rs:298-312 and
318-332. -/
def ferm2Test' (freq : Vec α) (i j k : Nat) (f3 : T3 α) : List Fermi2 :=
  let diff1 := freq i - freq j - freq k
  let diff2 := -freq i + freq j - freq k
  let diff3 := -freq i - freq j + freq k
  let diff4 := freq i + freq j + freq k
  let delta := diff1 * diff2 * diff3 * diff4
  if Arith.le F3TOL (Arith.abs (f3 i j k)) &&
      (Arith.le (Arith.abs delta) DLTOL || Arith.le (Arith.abs diff1) DFTOL ||
        Arith.le (Arith.abs diff2) DFTOL || Arith.le (Arith.abs diff3) DFTOL) then
    [⟨i, j, k⟩] else []

/-- The symmetric-top branch of `fermi2`, /repo/spectro/src/rotor.rs:244-335. `i1mode`, `d` are the
non-degenerate modes and the first components of the degenerate pairs (the second ones are not used). -/
def fermi2Sym (i1mode d : List Nat) (freq : Vec α) (f3 : T3 α) : List Fermi2 :=
  let n1dm := i1mode.length
  let n2dm := d.length
  ((List.range' 1 (n1dm - 1)).flatMap fun ii =>
    let i := i1mode.getD ii 0
    ((List.range ii).flatMap fun jj => (List.range n1dm).flatMap fun kk =>
      ferm2Test freq i (i1mode.getD jj 0) (i1mode.getD kk 0) f3) ++
    ((List.range n2dm).flatMap fun jj => (List.range n2dm).flatMap fun kk =>
      ferm2Test freq i (d.getD jj 0) (d.getD kk 0) f3)) ++
  ((List.range' 1 (n2dm - 1)).flatMap fun ii =>
    (List.range (n2dm - 1)).flatMap fun jj =>
      ((List.range n1dm).flatMap fun kk =>
        ferm2Test freq (d.getD ii 0) (d.getD jj 0) (i1mode.getD kk 0) f3) ++
      ((List.range n2dm).flatMap fun kk =>
        ferm2Test freq (d.getD ii 0) (d.getD jj 0) (d.getD kk 0) f3)) ++
  ((List.range n2dm).flatMap fun ii =>
    (List.range ii).flatMap fun jj =>
      ((List.range n1dm).flatMap fun kk =>
        ferm2Test' freq (d.getD ii 0) (d.getD jj 0) (i1mode.getD kk 0) f3) ++
      ((List.range n2dm).flatMap fun kk =>
        ferm2Test' freq (d.getD ii 0) (d.getD jj 0) (d.getD kk 0) f3))

/-- The asymmetric-top branch of `fermi2`, /repo/spectro/src/rotor.rs:338-350. -/
def fermi2Asym (i1mode : List Nat) (freq : Vec α) (f3 : T3 α) : List Fermi2 :=
  (List.range' 1 (i1mode.length - 1)).flatMap fun ii =>
    (List.range ii).flatMap fun jj => (List.range jj).flatMap fun kk =>
      ferm2Test freq (i1mode.getD ii 0) (i1mode.getD jj 0) (i1mode.getD kk 0) f3

/-- `fermi2`, /repo/spectro/src/rotor.rs:231-355. -/
def fermi2 (rotor : Rotor) (modes : List Mode) (freq : Vec α) (f3 : T3 α) : Option (List Fermi2) :=
  let p := Mode.partition modes
  match rotor with
  | .diatomic => some []
  | .sphericalTop => none
  | .oblateSymmTop | .prolateSymmTop | .linear =>
    some (fermi2Sym p.1 (p.2.1.map (·.1)) freq f3)
  | .asymmTop => some (fermi2Asym p.1 freq f3)
  | .none => none

/-- `Restst`, /repo/spectro/src/resonance.rs:125-135. -/
structure Restst where
  coriolis : List Coriolis
  fermi1 : List Fermi1
  fermi2 : List Fermi2
  darling : List Darling
  states : List State
  modes : List Mode
  ifunda : List Nat
  iovrtn : List Nat
  icombn : List Nat

/-- `Restst::new`, /repo/spectro/src/resonance.rs:139-286. -/
def reststNew (rotor : Rotor) (nvib i2vib : Nat) (zmat : T3 α) (f3 : T3 α) (freq : Vec α) :
    Option Restst := do
  let modes := degModes rotor nvib freq
  let cor ← coriolis rotor modes freq zmat
  let f1 ← fermi1 rotor modes freq f3
  let f2 ← fermi2 rotor modes freq f3
  let dd ← darling rotor modes freq
  let t ← newStates nvib i2vib modes
  return ⟨cor, f1, f2, dd, t.states, modes, t.ifunda, t.iovrtn, t.icombn⟩

end Verif
