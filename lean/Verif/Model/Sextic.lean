import Verif.Model.Quartic
import Verif.Model.Normal

/-!
# Sextic distortion constants (/repo/spectro/src/sextic.rs)
-/

namespace Verif

variable {α : Type} [Arith α]

/-- `c_mat`, /repo/spectro/src/sextic.rs:378-397. -/
def cMat (maxcor nvib : Nat) (freq primat : Vec α) (wila : Mat α) : Mat α :=
  ((List.range nvib).flatMap fun i => (List.range maxcor).flatMap fun x =>
    (List.range (x + 1)).map fun y => (i, x, y)).foldl
    (fun c p =>
      let i := p.1
      let x := p.2.1
      let y := p.2.2
      let cnst := Arith.powf15 (SQLAM * SQLAM * freq i)
      let z := ioff (x + 1) + y
      let div := Arith.lit 2.0 * primat x * primat y * cnst
      Mat.set c i z (wila i z / div)) (fun _ _ => Arith.lit 0)

/-- The factor common to all sums over `j`, /repo/spectro/src/sextic.rs:314, 331, 353. -/
def ccFac (freq : Vec α) (i j : Nat) : α :=
  Arith.lit 1.0 / sq (freq j) + Arith.lit 2.0 / sq (freq i)

/-- `cc[(i, x, x, x)]`, /repo/spectro/src/sextic.rs:310-322; `x` counts from one. -/
def ccDiag (nvib : Nat) (freq : Vec α) (c : Mat α) (zmat : T3 α) (rotcon : Vec α) (i x : Nat) : α :=
  let s := ioff (x + 1)
  (sumTo nvib fun j =>
    let val1 := ccFac freq i j
    let val2 := c j (s - 1) * zmat j i (x - 1) * rotcon (x - 1) * Arith.powf15 (freq j)
    val2 * val1) / Arith.sqrt (freq i)

/-- `cc[(i, y, x, x)]`, /repo/spectro/src/sextic.rs:328-343; `x`, `y` count from one. -/
def ccPair (nvib : Nat) (freq : Vec α) (c : Mat α) (zmat : T3 α) (rotcon : Vec α) (i x y : Nat) : α :=
  let s := ioff (x + 1)
  let t := ioff (max x y) + min x y
  (sumTo nvib fun j =>
    let val1 := ccFac freq i j
    let val2 := Arith.powf15 (freq j) * (c j (s - 1) * zmat j i (y - 1) * rotcon (y - 1) +
      Arith.lit 2.0 * c j (t - 1) * zmat j i (x - 1) * rotcon (x - 1))
    val2 * val1) / Arith.sqrt (freq i)

/-- `cc[(i, z, y, x)]`, /repo/spectro/src/sextic.rs:348-370; `x`, `y`, `z` count from one. -/
def ccTriple (nvib : Nat) (freq : Vec α) (c : Mat α) (zmat : T3 α) (rotcon : Vec α) (i x y z : Nat) : α :=
  let t := ioff (max x y) + min x y
  let u := ioff (max x z) + min x z
  let v := ioff (max y z) + min y z
  (sumTo nvib fun j =>
    let val1 := ccFac freq i j
    let val2 := Arith.powf15 (freq j) * (c j (v - 1) * zmat j i (x - 1) * rotcon (x - 1) +
      c j (u - 1) * zmat j i (y - 1) * rotcon (y - 1) +
      c j (t - 1) * zmat j i (z - 1) * rotcon (z - 1))
    val2 * val1) / Arith.sqrt (freq i)

/-- The assignments to `cc` in program order, as (index, value), /repo/spectro/src/sextic.rs:308-374. The
values do not depend on `cc`. -/
def ccWrites (nvib maxcor : Nat) (freq : Vec α) (c : Mat α) (zmat : T3 α) (rotcon : Vec α) :
    List ((Nat × Nat × Nat × Nat) × α) :=
  (List.range nvib).flatMap fun i => (List.range' 1 maxcor).flatMap fun x =>
    [((i, x - 1, x - 1, x - 1), ccDiag nvib freq c zmat rotcon i x)] ++
    (List.range' 1 maxcor).flatMap fun y =>
      if x = y then [] else
        let val := ccPair nvib freq c zmat rotcon i x y
        [((i, y - 1, x - 1, x - 1), val), ((i, x - 1, y - 1, x - 1), val), ((i, x - 1, x - 1, y - 1), val)] ++
        (List.range' 1 maxcor).flatMap fun z =>
          if x = z ∨ y = z then [] else
            [((i, z - 1, y - 1, x - 1), ccTriple nvib freq c zmat rotcon i x y z)]

/-- `cc_tensor`, /repo/spectro/src/sextic.rs:299-376. -/
def ccTensor (nvib maxcor : Nat) (freq : Vec α) (c : Mat α) (zmat : T3 α) (rotcon : Vec α) : T4 α :=
  (ccWrites nvib maxcor freq c zmat rotcon).foldl
    (fun cc w => T4.set cc w.1.1 w.1.2.1 w.1.2.2.1 w.1.2.2.2 w.2) (fun _ _ _ _ => Arith.lit 0)

/-- `TOL`, /repo/spectro/src/sextic.rs:82. -/
def SCC_TOL : α := Arith.lit 1e-4

/-- What `scc` reads, /repo/spectro/src/sextic.rs:70-80. -/
structure SccIn (α : Type) where
  nvib : Nat
  tau : T4 α
  rotcon : Vec α
  freq : Vec α
  cc : T4 α
  f3 : T3 α
  c : Mat α

/-- `val3 += f3qcm[(i, j, k)] * ...` over all triples, /repo/spectro/src/sextic.rs:107-114. -/
def sumTriples (n : Nat) (f : Nat → Nat → Nat → α) : α :=
  sumL ((List.range n).flatMap fun i => (List.range n).flatMap fun j => (List.range n).map fun k => (i, j, k))
    fun p => f p.1 p.2.1 p.2.2

/-- `scc[(x, x, x)]`, /repo/spectro/src/sextic.rs:90-131; `lin` is `spectro.rotor.is_linear()`. -/
def sccDiag (p : SccIn α) (maxcor : Nat) (lin : Bool) (x : Nat) : α :=
  let s := ioff (x + 1 + 1) - 1
  let val1 := sumTo maxcor fun y => sq (p.tau y x x x) / p.rotcon y
  let val1 := Arith.lit 3.0 * val1 / Arith.lit 16.0
  let val2 := (sumTo p.nvib fun i => p.freq i * sq (p.cc i x x x)) * Arith.lit 2.0
  let val3 := (sumTriples p.nvib fun i j k => p.f3 i j k * p.c i s * p.c j s * p.c k s) / Arith.lit 6.0
  let val4 := if lin then Arith.lit 0.0 else
    (List.range maxcor).foldl (fun v y =>
      if x ≠ y then
        let div := p.rotcon x - p.rotcon y
        if Arith.lt SCC_TOL (Arith.abs div) then v + sq (p.tau y x x x) / div else v
      else v) (Arith.lit 0.0)
  let val4 := val4 * Arith.lit 0.25
  val1 - val2 + val3 + val4

/-- `scc[(y, x, x)]`, /repo/spectro/src/sextic.rs:138-219, `ixyz = x + 1`, `jxyz = y + 1`. The loop over
`kxyz` updates `vale` and `valf` independently and is written as two loops. -/
def sccPair (p : SccIn α) (x y : Nat) : α :=
  let s := ioff (x + 1 + 1) - 1
  let t := ioff (y + 1 + 1) - 1
  let u := ioff (max (x + 1) (y + 1)) + min (x + 1) (y + 1) - 1
  let vala := (sumTo 3 fun z =>
    let val1 := sq (p.tau z y x x + Arith.lit 2.0 * p.tau z x y x)
    let val2 := Arith.lit 2.0 * p.tau z x x x * (p.tau z x y y + Arith.lit 2.0 * p.tau z y y x)
    (val1 + val2) / p.rotcon z) * (Arith.lit 3.0 / Arith.lit 32.0)
  let valb := sumTo p.nvib fun i =>
    let val1 := sq (p.cc i y x x) + Arith.lit 2.0 * p.cc i x x x * p.cc i y y x
    p.freq i * val1
  let valc := (sumTriples p.nvib fun i j k =>
    let val1 := p.c j s * p.c i t + Arith.lit 4.0 * p.c j u * p.c i u
    p.f3 i j k * p.c k s * val1) / Arith.lit 4.0
  let div := Arith.lit 8.0 * (p.rotcon x - p.rotcon y)
  let vald := if Arith.lt SCC_TOL (Arith.abs div) then
      let val1 := Arith.lit 4.0 * p.tau y y y x - Arith.lit 3.0 * p.tau y x x x
      Arith.lit 0.0 + val1 * p.tau y x x x / div
    else Arith.lit 0.0
  let vale := (List.range 3).foldl (fun v z =>
    if z = y ∨ z = x then v else
      let div := Arith.lit 4.0 * sq (p.rotcon x - p.rotcon z)
      if Arith.lt SCC_TOL div then
        let val1 := (p.rotcon x - p.rotcon z) * (p.tau z x y y + Arith.lit 2.0e0 * p.tau z y y x)
        let val2 := (p.rotcon x - p.rotcon y) * (p.tau z z z x - p.tau z x x x)
        v + p.tau z x x x * (val1 + val2) / div
      else v) (Arith.lit 0.0)
  let valf := (List.range 3).foldl (fun v z =>
    if z = y ∨ z = x then v else
      let div := Arith.lit 8.0 * sq (p.rotcon y - p.rotcon z)
      if Arith.lt SCC_TOL div then
        let val1 := (p.rotcon y - p.rotcon z) * (p.tau z y x x + Arith.lit 2.0 * p.tau z x y x)
        let val2 := Arith.lit 2.0 * (p.rotcon x - p.rotcon y) * (p.tau z y y y - p.tau z z z y)
        let val3 := p.tau z y x x + Arith.lit 2.0 * p.tau z x y x
        v + val3 * (val1 + val2) / div
      else v) (Arith.lit 0.0)
  vala - valb + valc + vald + vale + valf

/-- The value assigned to the six entries with three different indices,
/repo/spectro/src/sextic.rs:222-288. -/
def sccXyz (p : SccIn α) : α :=
  let vala := sumTo 3 fun x =>
    (Arith.lit 2.0 * sq (p.tau x 0 1 2 + p.tau x 1 2 0 + p.tau x 2 0 1) +
      ((p.tau x 0 1 1 + Arith.lit 2.0 * p.tau x 1 0 1) * (p.tau x 0 2 2 + Arith.lit 2.0 * p.tau x 2 0 2)) +
      ((p.tau x 1 2 2 + Arith.lit 2.0 * p.tau x 2 1 2) * (p.tau x 1 0 0 + Arith.lit 2.0 * p.tau x 0 1 0)) +
      ((p.tau x 2 0 0 + Arith.lit 2.0 * p.tau x 0 2 0) * (p.tau x 2 1 1 + Arith.lit 2.0 * p.tau x 1 2 1))) /
      p.rotcon x
  let vala := Arith.lit 3.0 * vala / Arith.lit 16.0
  let valb := (sumTo p.nvib fun i =>
    p.freq i * (Arith.lit 2.0 * sq (p.cc i 2 1 0) + p.cc i 1 1 0 * p.cc i 2 2 0 +
      p.cc i 2 2 1 * p.cc i 1 0 0 + p.cc i 2 0 0 * p.cc i 2 1 1)) * Arith.lit 2.0
  let valc := (sumTriples p.nvib fun i j k =>
    p.f3 i j k * (p.c i 0 * p.c j 2 * p.c k 5 + Arith.lit 2.0 * p.c i 0 * p.c j 4 * p.c k 4 +
      Arith.lit 2.0 * p.c i 2 * p.c j 3 * p.c k 3 + Arith.lit 2.0 * p.c i 5 * p.c j 1 * p.c k 1 +
      Arith.lit 8.0 * p.c i 4 * p.c j 3 * p.c k 1)) * Arith.lit 0.5
  let r := p.rotcon
  let div := Arith.lit 4.0 * sq (r 1 - r 2)
  let vald := if Arith.lt SCC_TOL div then
      (Arith.lit 3.0 * (p.tau 2 1 1 1 - p.tau 2 2 2 1)) *
        ((r 2 - r 0) * p.tau 2 1 1 1 + (r 0 - r 1) * p.tau 2 2 2 1) / div
    else Arith.lit 0.0
  let div := Arith.lit 4.0 * sq (r 2 - r 0)
  let vale := if Arith.lt SCC_TOL div then
      (Arith.lit 3.0 * (p.tau 2 2 2 0 - p.tau 2 0 0 0)) *
        ((r 0 - r 1) * p.tau 2 2 2 0 + (r 1 - r 2) * p.tau 2 0 0 0) / div
    else Arith.lit 0.0
  let div := Arith.lit 4.0 * sq (r 0 - r 1)
  let valf := if Arith.lt SCC_TOL div then
      (Arith.lit 3.0 * (p.tau 1 0 0 0 - p.tau 1 1 1 0)) *
        ((r 1 - r 2) * p.tau 1 0 0 0 + (r 2 - r 0) * p.tau 1 1 1 0) / div
    else Arith.lit 0.0
  vala - valb + valc + vald + vale + valf

/-- The assignments to `scc` in program order, /repo/spectro/src/sextic.rs:90-296. The values do not
depend on `scc`; the loops over `ixyz`, `jxyz` are written with `x = ixyz - 1`, `y = jxyz - 1`. -/
def sccWrites (p : SccIn α) (rotor : Rotor) (maxcor : Nat) : List ((Nat × Nat × Nat) × α) :=
  ((List.range maxcor).map fun x => ((x, x, x), sccDiag p maxcor (rotor == .linear) x)) ++
  if rotor.spectroLinear then [] else
    ((List.range 3).flatMap fun x => (List.range 3).flatMap fun y =>
      if x = y then [] else
        let value := sccPair p x y
        [((y, x, x), value), ((x, y, x), value), ((x, x, y), value)]) ++
    (let value := sccXyz p
    [((0, 1, 2), value), ((0, 2, 1), value), ((1, 0, 2), value), ((1, 2, 0), value), ((2, 0, 1), value),
      ((2, 1, 0), value)])

/-- `scc`, /repo/spectro/src/sextic.rs:70-297; `nfreq` is `freq.len()`. -/
def scc (p : SccIn α) (rotor : Rotor) (maxcor nfreq : Nat) : T3 α :=
  let p := if nfreq = 6 then { p with rotcon := fun i => p.rotcon (2 - i) } else p
  (sccWrites p rotor maxcor).foldl (fun t w => T3.set t w.1.1 w.1.2.1 w.1.2.2 w.2)
    (fun _ _ _ => Arith.lit 0)

/-- `make_phi`, /repo/spectro/src/sextic.rs:552-566. -/
def makePhi (maxcor : Nat) (ic : Vec Nat) (scc : T3 α) : T3 α :=
  ((List.range maxcor).flatMap fun i => (List.range maxcor).flatMap fun j =>
    (List.range maxcor).map fun k => (i, j, k)).foldl
    (fun t p => T3.set t (ic p.1) (ic p.2.1) (ic p.2.2) (scc p.1 p.2.1 p.2.2)) (fun _ _ _ => Arith.lit 0)

/-- `Sextic`, /repo/spectro/src/sextic.rs:22-41. -/
structure Sextic (α : Type) where
  phij : α
  phijk : α
  phikj : α
  phik : α
  sphij : α
  sphijk : α
  sphik : α
  hj : α
  hjk : α
  hkj : α
  hk : α
  h1 : α
  h2 : α
  h3 : α
  he : α

/-- `Sextic::default()`, the derived `Default` at /repo/spectro/src/sextic.rs:20. -/
def Sextic.default : Sextic α :=
  let z := Arith.lit 0
  ⟨z, z, z, z, z, z, z, z, z, z, z, z, z, z, z⟩

/-- The principal moments used by `Sextic::new`, /repo/spectro/src/sextic.rs:411-417. -/
def sexticPrimat (rotor : Rotor) (primat : Vec α) : Vec α :=
  if rotor = .diatomic then fun i => primat (2 - i) else primat

/-- The tensor of sextic coefficients computed by `Sextic::new`, /repo/spectro/src/sextic.rs:409-422. -/
def sexticScc (rotor : Rotor) (nvib nfreq : Nat) (rotcon primat freq : Vec α) (wila : Mat α)
    (zmat f3 : T3 α) : T3 α :=
  let maxcor := if rotor.spectroLinear then 2 else 3
  let primat := sexticPrimat rotor primat
  let c := cMat maxcor nvib freq primat wila
  let cc := ccTensor nvib maxcor freq c zmat rotcon
  let tau := makeTau nvib freq primat wila
  scc ⟨nvib, tau, rotcon, freq, cc, f3, c⟩ rotor maxcor nfreq

/-- `Sextic::new`, /repo/spectro/src/sextic.rs:400-549. -/
def Sextic.new (rotor : Rotor) (nvib nfreq : Nat) (rotcon primat freq : Vec α) (wila : Mat α)
    (zmat f3 : T3 α) : Sextic α :=
  let maxcor := if rotor.spectroLinear then 2 else 3
  let taucpm := tauPrime (makeTau nvib freq (sexticPrimat rotor primat) wila)
  let scc := sexticScc rotor nvib nfreq rotcon primat freq wila zmat f3
  if rotor = .diatomic then { (Sextic.default : Sextic α) with he := scc 1 1 1 }
  else if rotor = .linear then { (Sextic.default : Sextic α) with he := scc 0 0 0 }
  else
    let irep := if rotor.isSymTop then 5 else 0
    let ic := (princCart irep).1
    let id := (princCart irep).2
    let t := quarticT maxcor ic taucpm
    let phi := makePhi maxcor ic scc
    let t400 := (Arith.lit 3.0 * t 0 0 + Arith.lit 3.0 * t 1 1 + Arith.lit 2.0 * t 0 1) / Arith.lit 8.0
    let t220 := t 0 2 + t 1 2 - Arith.lit 2.0 * t400
    let t040 := t 2 2 - t220 - t400
    let t202 := (t 0 0 - t 1 1) / Arith.lit 4.0
    let t022 := (t 0 2 - t 1 2) / Arith.lit 2.0 - t202
    let t004 := (t 0 0 + t 1 1 - Arith.lit 2.0 * t 0 1) / Arith.lit 16.0
    let b002 := Arith.lit 0.25e0 * (rotcon (id 0) - rotcon (id 1))
    let phi600 := Arith.lit 5.0 * (phi 0 0 0 + phi 1 1 1) / Arith.lit 16.0 +
      (phi 0 0 1 + phi 1 1 0) / Arith.lit 8.0
    let phi420 := Arith.lit 3.0 * (phi 0 0 2 + phi 1 1 2) / Arith.lit 4.0 + phi 0 1 2 / Arith.lit 4.0 -
      Arith.lit 3.0 * phi600
    let phi240 := phi 2 2 0 + phi 2 2 1 - Arith.lit 2.0 * phi420 - Arith.lit 3.0 * phi600
    let phi060 := phi 2 2 2 - phi240 - phi420 - phi600
    let phi402 := Arith.lit 15.0 * (phi 0 0 0 - phi 1 1 1) / Arith.lit 64.0 +
      (phi 0 0 1 - phi 1 1 0) / Arith.lit 32.0
    let phi222 := (phi 0 0 2 - phi 1 1 2) / Arith.lit 2.0 - Arith.lit 2.0 * phi402
    let phi042 := (phi 2 2 0 - phi 2 2 1) / Arith.lit 2.0 - phi222 - phi402
    let phi204 := Arith.lit 3.0 * (phi 0 0 0 + phi 1 1 1) / Arith.lit 32.0 -
      (phi 0 0 1 + phi 1 1 0) / Arith.lit 16.0
    let phi024 := (phi 0 0 2 + phi 1 1 2 - phi 0 1 2) / Arith.lit 8.0 - phi204
    let phi006 := (phi 0 0 0 - phi 1 1 1) / Arith.lit 64.0 - (phi 0 0 1 - phi 1 1 0) / Arith.lit 32.0
    let asym : Bool := !rotor.isSymTop
    let sigma := if asym then
        (Arith.lit 2.0 * rotcon (id 2) - rotcon (id 0) - rotcon (id 1)) / (rotcon (id 0) - rotcon (id 1))
      else
        let id := (princCart (if rotor = .prolateSymmTop then 0 else 5)).2
        let rkappa := (Arith.lit 2.0 * rotcon (id 0) - rotcon (id 1) - rotcon (id 2)) /
          (rotcon (id 1) - rotcon (id 2))
        if Arith.lt rkappa (Arith.lit 0.0) then -Arith.lit 999999999999.0
        else
          let bo := (rkappa - Arith.lit 1.0) / (rkappa + Arith.lit 3.0)
          Arith.lit 1.0 / bo
    let phijk := phi420 - Arith.lit 12.0 * phi204 + Arith.lit 2.0 * phi024 +
      Arith.lit 16.0 * sigma * phi006 + Arith.lit 8.0 * t022 * t004 / b002
    let ret : Sextic α := if asym then
        { (Sextic.default : Sextic α) with
          phij := phi600 + Arith.lit 2.0 * phi204
          phijk := phijk
          phikj := phi240 + Arith.lit 10.0 * phi420 / Arith.lit 3.0 - Arith.lit 30.0 * phi204 -
            Arith.lit 10.0 * phijk / Arith.lit 3.0
          phik := phi060 - Arith.lit 7.0 * phi420 / Arith.lit 3.0 + Arith.lit 28.0 * phi204 +
            Arith.lit 7.0 * phijk / Arith.lit 3.0
          sphij := phi402 + phi006
          sphijk := phi222 + Arith.lit 4.0 * sigma * phi204 - Arith.lit 10.0 * phi006 +
            Arith.lit 2.0 * (t220 - Arith.lit 2.0 * sigma * t202 - Arith.lit 4.0 * t004) * t004 / b002
          sphik := phi042 + Arith.lit 4.0 * sigma * phi024 / Arith.lit 3.0 +
            (Arith.lit 32.0 * sigma * sigma / Arith.lit 3.0 + Arith.lit 9.0) * phi006 +
            Arith.lit 4.0 * (t040 + sigma * t022 / Arith.lit 3.0 -
              Arith.lit 2.0 * (sigma * sigma - Arith.lit 2.0) * t004) * t004 / b002 }
      else Sextic.default
    let id := (princCart (if rotor = .prolateSymmTop ∨ rotor = .asymmTop then 0 else 5)).2
    let b200 := Arith.lit 0.5 * (rotcon (id 0) + rotcon (id 1)) - Arith.lit 4.0 * t004
    let b020 := rotcon (id 2) - b200 + Arith.lit 6.0 * t004
    let div := Arith.lit 2.0 * sigma * sigma + Arith.lit 27.0 / Arith.lit 16.0
    let mu := (sigma * phi042 - Arith.lit 9.0 * phi024 / Arith.lit 8.0 +
      (-Arith.lit 2.0 * sigma * t040 + (sigma * sigma + Arith.lit 3.0) * t022 - Arith.lit 5.0 * sigma * t004) *
        t022 / b020) / div
    let nu := Arith.lit 3.0 * mu / (Arith.lit 16.0 * sigma) + phi024 / (Arith.lit 8.0 * sigma) +
      t004 * t022 / b020
    let lamda := Arith.lit 5.0 * nu / sigma + phi222 / (sigma * Arith.lit 2.0) +
      (-t220 / (sigma * Arith.lit 2.0) + t202 - t022 / (sigma * sigma) - Arith.lit 2.0 * t004 / sigma) *
        t022 / b020
    { ret with
      hj := phi600 - lamda
      hjk := phi420 + Arith.lit 6.0 * lamda - Arith.lit 3.0 * mu
      hkj := phi240 - Arith.lit 5.0 * lamda + Arith.lit 10.0 * mu
      hk := phi060 - Arith.lit 7.0 * mu
      h1 := phi402 - nu
      h2 := phi204 + lamda / Arith.lit 2.0
      h3 := phi006 + nu }

end Verif
