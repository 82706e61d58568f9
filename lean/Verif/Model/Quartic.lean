import Verif.Model.State
import Verif.Model.Index

/-!
# Quartic distortion constants and reported rotational constants
(/repo/spectro/src/utils.rs:416-469, quartic.rs, lib.rs:481-518, 850-922, rot.rs, consts.rs:48-59)
-/

namespace Verif

/-- `IPTOC`, principal to Cartesian, /repo/spectro/src/consts.rs:48-52 (three rows of six). -/
def IPTOC : List (List Nat) := [[2, 1, 0, 2, 0, 1], [0, 2, 1, 1, 2, 0], [1, 0, 2, 0, 1, 2]]

/-- `ICTOP`, Cartesian to principal, /repo/spectro/src/consts.rs:55-59 (three rows of six). -/
def ICTOP : List (List Nat) := [[1, 2, 0, 2, 0, 1], [2, 0, 1, 1, 2, 0], [0, 1, 2, 0, 1, 2]]

/-- `princ_cart`, /repo/spectro/src/utils.rs:465-469. The arrays of length three are functions of the
index; indexing the static matrices out of bounds would panic, every caller passes 0, 2 or 5. -/
def princCart (irep : Nat) : Vec Nat × Vec Nat :=
  (fun i => (IPTOC.getD i []).getD irep 0, fun i => (ICTOP.getD i []).getD irep 0)

/-- `Spectro::is_linear`, /repo/spectro/src/lib.rs:289-291. -/
def Rotor.spectroLinear : Rotor → Bool
  | .linear | .diatomic => true
  | _ => false

variable {α : Type} [Arith α]

/-- `CONST1`, /repo/spectro/src/utils.rs:438. -/
def TAU_CONST : α := Arith.lit 3.833384078e04

/-- `make_tau`, /repo/spectro/src/utils.rs:430-461: every entry is written once, so the tensor is the
function of its entries (within `maxcor`, which the callers keep to). -/
def makeTau (nvib : Nat) (freq primat : Vec α) (wila : Mat α) : T4 α := fun i j k l =>
  let x := ioff (max i j + 1) + min i j
  let y := ioff (max k l + 1) + min k l
  let sum := sumTo nvib (fun v =>
    let div := sq (freq v) * primat i * primat j * primat k * primat l
    wila v x * wila v y / div)
  (-Arith.lit 0.5) * TAU_CONST * sum

/-- `tau_prime`, /repo/spectro/src/utils.rs:417-428: every entry is assigned and, off the diagonal, added
to once. -/
def tauPrime (tau : T4 α) : Mat α := fun i j =>
  let t := tau i i j j
  if i ≠ j then t + Arith.lit 2.0 * tau i j i j else t

/-- `Quartic`, /repo/spectro/src/quartic.rs:19-52. -/
structure Quartic (α : Type) where
  sigma : α
  rkappa : α
  delj : α
  delk : α
  deljk : α
  sdelk : α
  sdelj : α
  bxa : α
  bya : α
  bza : α
  djn : α
  djkn : α
  dkn : α
  sdjn : α
  r5 : α
  r6 : α
  dj : α
  djk : α
  dk : α
  sd1 : α
  sd2 : α
  bxs : α
  bys : α
  bzs : α
  djw : α
  djkw : α
  dkw : α
  de : α

/-- `Quartic::default()`, the derived `Default` at /repo/spectro/src/quartic.rs:17. -/
def Quartic.default : Quartic α :=
  let z := Arith.lit 0
  ⟨z, z, z, z, z, z, z, z, z, z, z, z, z, z, z, z, z, z, z, z, z, z, z, z, z, z, z, z⟩

/-- `impl Sub for Quartic`, /repo/spectro/src/quartic.rs:94-129. -/
def Quartic.sub (a b : Quartic α) : Quartic α where
  sigma := a.sigma - b.sigma
  rkappa := a.rkappa - b.rkappa
  delj := a.delj - b.delj
  delk := a.delk - b.delk
  deljk := a.deljk - b.deljk
  sdelk := a.sdelk - b.sdelk
  sdelj := a.sdelj - b.sdelj
  bxa := a.bxa - b.bxa
  bya := a.bya - b.bya
  bza := a.bza - b.bza
  djn := a.djn - b.djn
  djkn := a.djkn - b.djkn
  dkn := a.dkn - b.dkn
  sdjn := a.sdjn - b.sdjn
  r5 := a.r5 - b.r5
  r6 := a.r6 - b.r6
  dj := a.dj - b.dj
  djk := a.djk - b.djk
  dk := a.dk - b.dk
  sd1 := a.sd1 - b.sd1
  sd2 := a.sd2 - b.sd2
  bxs := a.bxs - b.bxs
  bys := a.bys - b.bys
  bzs := a.bzs - b.bzs
  djw := a.djw - b.djw
  djkw := a.djkw - b.djkw
  dkw := a.dkw - b.dkw
  de := a.de - b.de

/-- The choice of representation, /repo/spectro/src/quartic.rs:206-214; `todo!()` is `none`. -/
def quarticRep : Rotor → Option Nat
  | .diatomic => some 2
  | .linear => some 2
  | .sphericalTop => none
  | .oblateSymmTop => some 5
  | .prolateSymmTop => some 0
  | .asymmTop => some 0
  | .none => none

/-- The relabelled matrix `t`, /repo/spectro/src/quartic.rs:218-223. -/
def quarticT (maxcor : Nat) (c : Vec Nat) (taupcm : Mat α) : Mat α :=
  ((List.range maxcor).flatMap fun i => (List.range maxcor).map fun j => (i, j)).foldl
    (fun t p => Mat.set t (c p.1) (c p.2) (taupcm p.1 p.2 / Arith.lit 4.0)) (fun _ _ => Arith.lit 0)

/-- `rkappa`, `sigma`, the representation used afterwards and the fields of the A reduction set on the
way, /repo/spectro/src/quartic.rs:243-280; the last branch panics (and is never reached because
`quarticRep` already stopped). -/
def quarticAsym (rotor : Rotor) (rotcon : Vec α) (d : Vec Nat) (irep : Nat)
    (t400 t220 t040 t202 t022 t004 : α) : Option (α × α × Nat × Quartic α) :=
  if rotor.isSymTop && !(rotor == .linear) && !(rotor == .sphericalTop) then
    let rkappa := (Arith.lit 2.0 * rotcon (d 0) - rotcon (d 1) - rotcon (d 2)) /
      (rotcon (d 1) - rotcon (d 2))
    if Arith.lt rkappa (Arith.lit 0.0) then
      some (rkappa, -Arith.lit 9999999999999.0, 2, Quartic.default)
    else
      let bo := (rkappa - Arith.lit 1.0) / (rkappa + Arith.lit 3.0)
      some (rkappa, Arith.lit 1.0 / bo, irep, Quartic.default)
  else if rotor = .asymmTop then
    let sigma := (Arith.lit 2.0 * rotcon (d 2) - rotcon (d 0) - rotcon (d 1)) /
      (rotcon (d 0) - rotcon (d 1))
    let rkappa := (Arith.lit 2.0 * rotcon 1 - rotcon 0 - rotcon 2) / (rotcon 0 - rotcon 2)
    some (rkappa, sigma, irep, { (Quartic.default : Quartic α) with
      delj := -t400 - Arith.lit 2.0 * t004
      delk := -t040 - Arith.lit 10.0 * t004
      deljk := -t220 + Arith.lit 12.0 * t004
      sdelk := -t022 - Arith.lit 4.0 * sigma * t004
      sdelj := -t202
      bxa := rotcon (d 0) - Arith.lit 8.0 * (sigma + Arith.lit 1.0) * t004
      bya := rotcon (d 1) + Arith.lit 8.0 * (sigma - Arith.lit 1.0) * t004
      bza := rotcon (d 2) + Arith.lit 16.0 * t004 })
  else none

/-- `Quartic::new`, /repo/spectro/src/quartic.rs:202-312; `none` is a panic. -/
def Quartic.new (rotor : Rotor) (nvib : Nat) (rotcon primat freq : Vec α) (wila : Mat α) :
    Option (Quartic α) := do
  let maxcor := if rotor.spectroLinear then 2 else 3
  let taupcm := tauPrime (makeTau nvib freq primat wila)
  let irep ← quarticRep rotor
  let c := (princCart irep).1
  let d := (princCart irep).2
  let t := quarticT maxcor c taupcm
  if rotor = .diatomic then
    return { (Quartic.default : Quartic α) with de := -t 1 1 }
  else if rotor.spectroLinear then
    return { (Quartic.default : Quartic α) with de := -t 0 0 }
  else
    let t400 := (Arith.lit 3.0 * t 0 0 + Arith.lit 3.0 * t 1 1 + Arith.lit 2.0 * t 0 1) / Arith.lit 8.0
    let t220 := t 0 2 + t 1 2 - Arith.lit 2.0 * t400
    let t040 := t 2 2 - t220 - t400
    let t202 := (t 0 0 - t 1 1) / Arith.lit 4.0
    let t022 := (t 0 2 - t 1 2) / Arith.lit 2.0 - t202
    let t004 := (t 0 0 + t 1 1 - Arith.lit 2.0 * t 0 1) / Arith.lit 16.0
    let (rkappa, sigma, irep, ret) ← quarticAsym rotor rotcon d irep t400 t220 t040 t202 t022 t004
    let ic := (princCart irep).1
    let id := (princCart irep).2
    let djw := -taupcm (ic 0) (ic 0) / Arith.lit 4.0
    return { ret with
      djn := -t400
      djkn := -t220
      dkn := -t040
      sdjn := -t202
      r5 := t022 / Arith.lit 2.0
      r6 := t004
      dj := -t400 + Arith.lit 0.5 * t022 / sigma
      djk := -t220 - Arith.lit 3.0 * t022 / sigma
      dk := -t040 + Arith.lit 2.5 * t022 / sigma
      sd1 := t202
      sd2 := t004 + Arith.lit 0.25 * t022 / sigma
      bxs := rotcon (id 0) - Arith.lit 4.0 * t004 + (Arith.lit 2.0 + Arith.lit 1.0 / sigma) * t022
      bys := rotcon (id 1) - Arith.lit 4.0 * t004 - (Arith.lit 2.0 - Arith.lit 1.0 / sigma) * t022
      bzs := rotcon (id 2) + Arith.lit 6.0 * t004 - Arith.lit 5.0 * t022 / (Arith.lit 2.0 * sigma)
      djw := djw
      djkw := -Arith.lit 2.0 * djw - taupcm (ic 0) (ic 2) / Arith.lit 2.0
      dkw := djw - taupcm (ic 2) (ic 2) / Arith.lit 4.0 + taupcm (ic 0) (ic 2) / Arith.lit 2.0
      sigma := sigma
      rkappa := rkappa }

/-- `Rot`, /repo/spectro/src/rot.rs:8-13. -/
structure Rot (α : Type) where
  state : State
  a : α
  b : α
  c : α

/-- The three-element array `vibr` after its three writes, /repo/spectro/src/lib.rs:500-503, 893-896. -/
def vibrArr (ic : Vec Nat) (v0 v1 v2 : α) : Vec α :=
  let z : Vec α := fun _ => Arith.lit 0.0
  let z := Function.update z (ic 0) v0
  let z := Function.update z (ic 1) v1
  Function.update z (ic 2) v2

/-- One iteration of the loop of `rota`, /repo/spectro/src/lib.rs:493-516: the failed assertion and the
out of bounds access panic. `nderiv` is `*self.header.get(7).unwrap_or(&4)`. -/
def rotaStep (nderiv : Int) (rotcon : Vec α) (rotnst : Mat α) (states : List State) (q : Quartic α)
    (ret : List (Rot α)) (nst : Nat) : Option (List (Rot α)) :=
  if nderiv > 2 then
    let ic := (princCart 0).1
    let vibr := vibrArr ic (rotnst nst 0 - rotcon 0) (rotnst nst 1 - rotcon 1) (rotnst nst 2 - rotcon 2)
    let bxa := q.bxa + vibr 0
    let bya := q.bya + vibr 1
    let bza := q.bza + vibr 2
    match states[nst]? with
    | some (.i1st v) => some (ret ++ [⟨.i1st v, bza, bxa, bya⟩])
    | some _ => some ret
    | none => none
  else none

/-- `Spectro::rota`, /repo/spectro/src/lib.rs:481-518; `nstop` is the number of rows of `rotnst`. -/
def rota (header : List Int) (nstop : Nat) (rotcon : Vec α) (rotnst : Mat α) (states : List State)
    (q : Quartic α) : Option (List (Rot α)) :=
  (List.range nstop).foldlM (rotaStep (header.getD 7 4) rotcon rotnst states q) []

/-- The states `rots` does not `continue` over, /repo/spectro/src/lib.rs:876-889. -/
def rotsAccepts : State → Bool
  | .i1st v | .i3st v => !decide (v.sum > 1)
  | .i2st v => (v.filter fun p => p == (1, 1)).length == 1
  | .i12st _ _ => false

/-- `(ia, ib, irep)`, /repo/spectro/src/lib.rs:866-872. -/
def rotsAxes (rotor : Rotor) : Nat × Nat × Nat :=
  if rotor = .prolateSymmTop then (2, 1, 2) else if rotor = .diatomic then (0, 1, 2) else (2, 1, 5)

/-- One iteration of the loop of `rots`, /repo/spectro/src/lib.rs:876-919. -/
def rotsStep (rotor : Rotor) (rotcon : Vec α) (rotnst : Mat α) (states : List State) (q : Quartic α)
    (ret : List (Rot α)) (nst : Nat) : Option (List (Rot α)) :=
  let ia := (rotsAxes rotor).1
  let ib := (rotsAxes rotor).2.1
  let ic := (princCart (rotsAxes rotor).2.2).1
  match states[nst]? with
  | none => none
  | some st =>
    if rotsAccepts st then
      let vib1 := rotnst nst ia - rotcon ia
      let vib2 := rotnst nst ib - rotcon ib
      let vibr := vibrArr ic vib1 vib2 vib2
      let bxs := q.bxs + vibr 2
      let bys := q.bys + vibr 0
      let bzs := q.bzs + vibr 1
      let p := if rotor = .linear then (bzs, bys) else (bys, bzs)
      match st with
      | .i1st _ | .i2st _ => some (ret ++ [⟨st, p.1, bxs, p.2⟩])
      | _ => some ret
    else some ret

/-- `Spectro::rots`, /repo/spectro/src/lib.rs:850-922; `nstop` is the number of rows of `rotnst`. -/
def rots (rotor : Rotor) (nstop : Nat) (rotcon : Vec α) (rotnst : Mat α) (states : List State)
    (q : Quartic α) : Option (List (Rot α)) :=
  (List.range nstop).foldlM (rotsStep rotor rotcon rotnst states q) []

/-- The constant printed for a linear molecule, /repo/spectro/src/output.rs:117-119. -/
def printedB (rotEquil : Vec α) (r : Rot α) : α := r.b + rotEquil 1

end Verif
