import Verif.Model.Xcalc

/-!
# Anharmonic constants of symmetric tops (/repo/spectro/src/xcals.rs, lib.rs:925-970)

`f3`, `f4` are the lookups into the packed tables.  `i1mode` is the list of non-degenerate modes, `i2mode`
the list of pairs of degenerate ones.
-/

namespace Verif

variable {α : Type} [Arith α]

/-- `Rotor::is_linear` (crate `symm`), used at /repo/spectro/src/xcals.rs:584, 639: true for `Linear` only
(inferred: /repo/spectro/src/lib.rs:290 adds the diatomic case explicitly). -/
def Rotor.isLinearR : Rotor → Bool
  | .linear => true
  | _ => false

/-- `make_e2`, /repo/spectro/src/xcals.rs:17-52. The loops run over `i2mode` and `i1mode`, whose lengths are
`n2dm` and `n1dm` (C18). The three accumulators are separate sums. -/
def makeE2 (i1mode : List Nat) (i2mode : List (Nat × Nat)) (freq : Vec α) (f4 : T4 α) (f3 : T3 α)
    (ifrm1 : Ifrm1) : α :=
  let f4s := sumL i2mode fun p => f4 p.1 p.1 p.1 p.1 / Arith.lit 48.0
  let f3s := sumL i2mode fun p =>
    Arith.lit 11.0 * sq (f3 p.1 p.1 p.1) / (freq p.1 * Arith.lit 144.0)
  let f3kss := sumL (i2mode.flatMap fun p => i1mode.map fun l => (p.1, l)) fun p =>
    let k := p.1
    let l := p.2
    let wk := sq (freq k)
    let zval4 := sq (f3 k k l)
    let wl := sq (freq l)
    if ifrm1.check k l then
      let delta4 := Arith.lit 2.0 * (Arith.lit 2.0 * freq k + freq l)
      zval4 / (Arith.lit 16.0 * delta4)
    else
      let delta4 := Arith.lit 4.0 * wk - wl
      zval4 * freq l / (Arith.lit 16.0 * delta4)
  f4s + f3s + f3kss

/-- The accumulators of `make_e3`, /repo/spectro/src/xcals.rs:65-67. -/
structure E3Acc (α : Type) where
  f3kst : α
  f3sst : α
  f3stu : α

/-- The `sst` term, /repo/spectro/src/xcals.rs:78-92. -/
def e3sst (freq : Vec α) (f3 : T3 α) (ifrm1 : Ifrm1) (k l : Nat) : α :=
  let wk := sq (freq k)
  let wl := sq (freq l)
  let zval5 := sq (f3 k k l)
  if ifrm1.check k l then
    let delta5 := (Arith.lit 8.0 * wk + wl) / (Arith.lit 2.0 * freq k + freq l) / (Arith.lit 2.0 * wl)
    zval5 * delta5 / Arith.lit 16.0
  else
    let delta5 := (Arith.lit 8.0 * wk + wl) / (freq l * (Arith.lit 4.0 * wk - wl))
    zval5 * delta5 / Arith.lit 16.0

/-- The quantity subtracted from `f3kst`, /repo/spectro/src/xcals.rs:99-113. -/
def e3kst (freq : Vec α) (f3 : T3 α) (ifrm2 : Ifrm2) (k l m : Nat) : α :=
  let zval6 := sq (f3 k l m)
  let xkst := freq k * freq l * freq m
  let d1 := freq k + freq l + freq m
  let d2 := freq k - freq l + freq m
  let d3 := freq k + freq l - freq m
  let d4 := freq k - freq l - freq m
  if ifrm2.check (l, k) m then zval6 * (one / d1 + one / d2 + one / d4) / Arith.lit 8.0
  else if ifrm2.check (m, l) k then zval6 * (one / d1 + one / d2 - one / d3) / Arith.lit 8.0
  else if ifrm2.check (m, k) l then zval6 * (one / d1 - one / d3 + one / d4) / Arith.lit 8.0
  else zval6 * xkst / (Arith.lit 2.0 * (d1 * d2 * d3 * d4))

/-- The quantity subtracted from `f3stu`, /repo/spectro/src/xcals.rs:123-139. -/
def e3stu (freq : Vec α) (f3 : T3 α) (chk : Nat → Nat → Nat → Nat) (k l m : Nat) : α :=
  let zval7 := sq (f3 k l m)
  let xstu := freq k * freq l * freq m
  let d1 := freq k + freq l + freq m
  let d2 := freq k - freq l + freq m
  let d3 := freq k + freq l - freq m
  let d4 := freq k - freq l - freq m
  zval7 * (if chk k l m ≠ 0 then (one / d1 + one / d2 + one / d4) / Arith.lit 2.0
    else if chk l m k ≠ 0 then (one / d1 + one / d2 - one / d3) / Arith.lit 2.0
    else if chk k m l ≠ 0 then (one / d1 - one / d3 + one / d4) / Arith.lit 2.0
    else Arith.lit 2.0 * xstu / (d1 * d2 * d3 * d4))

/-- The body of the two outer loops of `make_e3`, /repo/spectro/src/xcals.rs:73-143: skipped for `k = l`;
the two inner loops either subtract a term or *reset the accumulator to zero*. -/
def e3Step (i1mode d : List Nat) (freq : Vec α) (f3 : T3 α) (t : FermiChecks) (a : E3Acc α)
    (p : Nat × Nat) : E3Acc α :=
  let k := p.1
  let l := p.2
  if k = l then a else
  { f3kst := i1mode.foldl (fun f3kst m =>
      if k ≤ l then Arith.lit 0.0 else f3kst - e3kst freq f3 t.ifrm2 k l m) a.f3kst
    f3sst := a.f3sst + e3sst freq f3 t.ifrm1 k l
    f3stu := d.foldl (fun f3stu m =>
      if k ≤ l ∨ l ≤ m then Arith.lit 0.0 else f3stu - e3stu freq f3 t.ifrmchk k l m) a.f3stu }

/-- `make_e3`, /repo/spectro/src/xcals.rs:55-146; `d` is the list of the first components of `i2mode`
(the second ones are not used). -/
def makeE3 (i1mode d : List Nat) (freq : Vec α) (f3 : T3 α) (t : FermiChecks) : α :=
  let a := (d.flatMap fun k => d.map fun l => (k, l)).foldl (e3Step i1mode d freq f3 t)
    ⟨Arith.lit 0.0, Arith.lit 0.0, Arith.lit 0.0⟩
  a.f3kst + a.f3sst + a.f3stu

/-- The default factor of the off-diagonal constants, /repo/spectro/src/xcals.rs:456-460, 551-555 (and
in `deg_deg` with another prefactor). -/
def xDefault (freq : Vec α) (k l m : Nat) : α :=
  let (d1, d2, d3, d4) := dens freq k l m
  Arith.lit 0.5 * freq m * (sq (freq m) - sq (freq k) - sq (freq l)) / (-d1 * d2 * d3 * d4)

/-- The step of the diagonal sums, /repo/spectro/src/xcals.rs:494-506, 676-689, 692-705. -/
def diagStep (freq : Vec α) (f3 : T3 α) (ifrm1 : Ifrm1) (k : Nat) (valu : α) (l : Nat) : α :=
  let wk := sq (freq k)
  let val2 := sq (f3 k k l)
  if ifrm1.check k l then
    let val3 := one / (Arith.lit 8.0 * freq l)
    let val4 := one / (Arith.lit 32.0 * (Arith.lit 2.0 * freq k + freq l))
    valu - val2 * (val3 + val4)
  else
    let wl := sq (freq l)
    let val3 := Arith.lit 8.0 * wk - Arith.lit 3.0 * wl
    let val4 := Arith.lit 16.0 * freq l * (Arith.lit 4.0 * wk - wl)
    valu - val2 * val3 / val4

/-- `xcnst[(k, k)]` in `nondeg_nondeg`, /repo/spectro/src/xcals.rs:491-508. -/
def nnDiag (i1mode : List Nat) (f4 : T4 α) (f3 : T3 α) (freq : Vec α) (ifrm1 : Ifrm1) (k : Nat) : α :=
  f4 k k k k / Arith.lit 16.0 + i1mode.foldl (diagStep freq f3 ifrm1 k) (Arith.lit 0.0)

/-- The factor of `-f3qcm[klm]^2` in `nondeg_nondeg`, /repo/spectro/src/xcals.rs:539-556. -/
def nnFac (freq : Vec α) (ifrm2 : Ifrm2) (k l m : Nat) : α :=
  let (d1, d2, d3, d4) := dens freq k l m
  if ifrm2.check (l, m) k then one / (Arith.lit 8.0 * (Arith.lit 2.0 * freq l + freq k))
  else if ifrm2.check (k, m) l then one / (Arith.lit 8.0 * (Arith.lit 2.0 * freq k + freq l))
  else if ifrm2.check (k, l) m then (one / d1 + one / d2 + one / d4) / Arith.lit 8.0
  else if ifrm2.check (l, m) k then (one / d1 + one / d2 + one / d3) / Arith.lit 8.0
  else if ifrm2.check (k, m) l then (one / d1 + one / d3 + one / d4) / Arith.lit 8.0
  else xDefault freq k l m

/-- `val2` of the off-diagonal blocks, /repo/spectro/src/xcals.rs:525-529, 429-433. -/
def xVal2 (i1mode : List Nat) (f3 : T3 α) (freq : Vec α) (k l : Nat) : α :=
  i1mode.foldl (fun v m => v - f3 k k m * f3 l l m / (Arith.lit 4.0 * freq m)) (Arith.lit 0.0)

/-- `value` in `nondeg_nondeg`, /repo/spectro/src/xcals.rs:520-565; the third-order constant is looked up
as `(k, m, l)`. -/
def nnOff (i1mode : List Nat) (f4 : T4 α) (f3 : T3 α) (freq : Vec α) (ifrm2 : Ifrm2) (rotcon : Vec α)
    (ia : Nat) (zmat : T3 α) (k l : Nat) : α :=
  let val1 := f4 k k l l / Arith.lit 4.0
  let val2 := xVal2 i1mode f3 freq k l
  let valu := sumL i1mode fun m => -sq (f3 k m l) * nnFac freq ifrm2 k l m
  let val7 := rotcon ia * sq (zmat k l 2)
  let val8 := (freq k / freq l + freq l / freq k) * val7
  val1 + val2 + valu + val8

/-- `m[(i, j)] = v; m[(j, i)] = v`, /repo/spectro/src/xcals.rs:566-567 and elsewhere. -/
def setSym (x : Mat α) (i j : Nat) (v : α) : Mat α := Mat.set (Mat.set x i j v) j i v

/-- `nondeg_nondeg`, /repo/spectro/src/xcals.rs:479-570; `none`: the `todo!()` for diatomics at 513. -/
def nondegNondeg (rotor : Rotor) (i1mode : List Nat) (f4 : T4 α) (f3 : T3 α) (freq : Vec α) (t : FermiChecks)
    (rotcon : Vec α) (ia : Nat) (zmat : T3 α) (x : Mat α) : Option (Mat α) :=
  let x := i1mode.foldl (fun x k => Mat.set x k k (nnDiag i1mode f4 f3 freq t.ifrm1 k)) x
  if rotor = .diatomic then none else
  some <| (lowPairs i1mode.length).foldl (fun x p =>
    let k := i1mode.getD p.1 0
    let l := i1mode.getD p.2 0
    setSym x k l (nnOff i1mode f4 f3 freq t.ifrm2 rotcon ia zmat k l)) x

/-- The factor of `-f3qcm[klm]^2` in `nondeg_deg`, /repo/spectro/src/xcals.rs:447-461. -/
def ndFac (freq : Vec α) (ifrm2 : Ifrm2) (k l m : Nat) : α :=
  let (d1, d2, d3, d4) := dens freq k l m
  if l = m ∧ ifrm2.check (l, m) k then one / (Arith.lit 8.0 * (Arith.lit 2.0 * freq l + freq k))
  else if ifrm2.check (k, l) m then one * (one / d1 + one / d2 + one / d4) / Arith.lit 8.0
  else if ifrm2.check (l, m) k then one * (one / d1 + one / d2 + one / d3) / Arith.lit 8.0
  else if ifrm2.check (k, m) l then one * (one / d1 + one / d3 + one / d4) / Arith.lit 8.0
  else xDefault freq k l m

/-- `value` in `nondeg_deg`, /repo/spectro/src/xcals.rs:428-469. -/
def ndOff (i1mode : List Nat) (i2mode : List (Nat × Nat)) (f4 : T4 α) (f3 : T3 α) (freq : Vec α)
    (ifrm2 : Ifrm2) (rotcon : Vec α) (ib : Nat) (zmat : T3 α) (k l : Nat) : α :=
  let val2 := xVal2 i1mode f3 freq k l
  let valu := sumL i2mode fun p => -sq (f3 k l p.1) * ndFac freq ifrm2 k l p.1
  let val7 := rotcon ib * (sq (zmat k l 0) + sq (zmat k l 1))
  let val8 := (freq k / freq l + freq l / freq k) * val7
  f4 k k l l / Arith.lit 4.0 + val2 + valu + val8

/-- `nondeg_deg`, /repo/spectro/src/xcals.rs:415-476. -/
def nondegDeg (i1mode : List Nat) (i2mode : List (Nat × Nat)) (f4 : T4 α) (f3 : T3 α) (freq : Vec α)
    (ifrm2 : Ifrm2) (rotcon : Vec α) (ib : Nat) (zmat : T3 α) (x : Mat α) : Mat α :=
  (i1mode.flatMap fun k => i2mode.map fun p => (k, p)).foldl (fun x q =>
    let value := ndOff i1mode i2mode f4 f3 freq ifrm2 rotcon ib zmat q.1 q.2.1
    setSym (setSym x q.1 q.2.1 value) q.1 q.2.2 value) x

/-- `value` in `deg_deg1`, /repo/spectro/src/xcals.rs:674-707. -/
def ddDiag (i1mode : List Nat) (i2mode : List (Nat × Nat)) (f4 : T4 α) (f3 : T3 α) (freq : Vec α)
    (ifrm1 : Ifrm1) (k : Nat) : α :=
  f4 k k k k / Arith.lit 16.0 + i1mode.foldl (diagStep freq f3 ifrm1 k) (Arith.lit 0.0) +
    (i2mode.map (·.1)).foldl (diagStep freq f3 ifrm1 k) (Arith.lit 0.0)

/-- `deg_deg1`, /repo/spectro/src/xcals.rs:665-712. -/
def degDeg1 (i1mode : List Nat) (i2mode : List (Nat × Nat)) (f4 : T4 α) (f3 : T3 α) (freq : Vec α)
    (ifrm1 : Ifrm1) (x : Mat α) : Mat α :=
  i2mode.foldl (fun x p =>
    let value := ddDiag i1mode i2mode f4 f3 freq ifrm1 p.1
    Mat.set (Mat.set x p.1 p.1 value) p.2 p.2 value) x

/-- A term of `valu` in `deg_deg`, /repo/spectro/src/xcals.rs:190-213. -/
def ddValu (freq : Vec α) (f3 : T3 α) (ifrm2 : Ifrm2) (k l m : Nat) : α :=
  let (d1, d2, d3, d4) := dens freq k l m
  if ifrm2.checkEither (l, k) m then
    let delta := one / d1 + one / d2 + one / d4
    (-sq (f3 k l m)) * delta / Arith.lit 16.0
  else if ifrm2.check (m, l) k then
    let delta := one / d1 + one / d2 - one / d3
    (-sq (f3 k l m)) * delta / Arith.lit 16.0
  else if ifrm2.check (m, k) l then
    let delta := one / d1 + one / d3 + one / d4
    (-sq (f3 k l m)) * delta / Arith.lit 16.0
  else
    let delta := -d1 * d2 * d3 * d4
    let val3 := sq (freq m) - sq (freq k) - sq (freq l)
    (-Arith.lit 0.25) * sq (f3 k l m) * freq m * val3 / delta

/-- A term of `valus` in `deg_deg`, /repo/spectro/src/xcals.rs:219-245. -/
def ddValus (freq : Vec α) (f3 : T3 α) (ifrm2 : Ifrm2) (k l m : Nat) : α :=
  let (d1, d2, d3, d4) := dens freq k l m
  if l = m ∧ ifrm2.check (l, m) k then
    let delta := Arith.lit 8.0 * (Arith.lit 2.0 * freq l + freq k)
    (-sq (f3 k l m)) / delta
  else if k = m ∧ ifrm2.check (k, m) l then
    let delta := Arith.lit 8.0 * (Arith.lit 2.0 * freq k + freq l)
    (-sq (f3 k l m)) / delta
  else if ifrm2.check (k, l) m then
    let delta := one / d1 + one / d2 + one / d4
    (-sq (f3 k l m)) * delta / Arith.lit 8.0
  else if ifrm2.check (l, m) k then
    let delta := one / d1 + one / d2 + one / d3
    (-sq (f3 k l m)) * delta / Arith.lit 8.0
  else if ifrm2.check (k, m) l then
    let delta := one / d1 + one / d3 + one / d4
    (-sq (f3 k l m)) * delta / Arith.lit 8.0
  else
    let delta := -d1 * d2 * d3 * d4
    let val3 := sq (freq m) - sq (freq k) - sq (freq l)
    (-Arith.lit 0.5) * sq (f3 k l m) * freq m * val3 / delta

/-- `value` in `deg_deg` for the pairs `(k, _)` and `(l, l2)`, /repo/spectro/src/xcals.rs:173-252. -/
def ddOff (i1mode : List Nat) (i2mode : List (Nat × Nat)) (f4 : T4 α) (f3 : T3 α) (freq : Vec α)
    (ifrm2 : Ifrm2) (rotcon : Vec α) (ia ib ixyz : Nat) (zmat : T3 α) (k l l2 : Nat) : α :=
  let val1 := (f4 k k l l + f4 k k l2 l2) / Arith.lit 8.0
  let val2 := sumL i1mode fun m => -(f3 k k m * f3 l l m / (Arith.lit 4.0 * freq m))
  let valu := sumL i1mode fun m => ddValu freq f3 ifrm2 k l m
  let valus := sumL i2mode fun p => ddValus freq f3 ifrm2 k l p.1
  let val7 := Arith.lit 0.5 * rotcon ia * sq (zmat k l2 2) + rotcon ib * sq (zmat k l ixyz)
  let val8 := (freq k / freq l + freq l / freq k) * val7
  val1 + val2 + valu + valus + val8

/-- `deg_deg`, /repo/spectro/src/xcals.rs:151-258. -/
def degDeg (i1mode : List Nat) (i2mode : List (Nat × Nat)) (f4 : T4 α) (f3 : T3 α) (freq : Vec α)
    (t : FermiChecks) (rotcon : Vec α) (ia ib ixyz : Nat) (zmat : T3 α) (x : Mat α) : Mat α :=
  (lowPairs i2mode.length).foldl (fun x p =>
    let k := i2mode.getD p.1 (0, 0)
    let l := i2mode.getD p.2 (0, 0)
    let value := ddOff i1mode i2mode f4 f3 freq t.ifrm2 rotcon ia ib ixyz zmat k.1 l.1 l.2
    setSym (setSym x k.1 l.1 value) k.2 l.2 value)
    (degDeg1 i1mode i2mode f4 f3 freq t.ifrm1 x)

/-- A term of `valu` in `gcnst1`, /repo/spectro/src/xcals.rs:375-386. -/
def gDiagValu (freq : Vec α) (f3 : T3 α) (ifrm1 : Ifrm1) (k l : Nat) : α :=
  let wk := sq (freq k)
  let val2 := sq (f3 k k l)
  if ifrm1.check k l then
    let val3 := Arith.lit 32.0 * (Arith.lit 2.0 * freq k + freq l)
    val2 / val3
  else
    let wl := freq l * freq l
    let val3 := val2 * freq l
    let val4 := Arith.lit 16.0 * (Arith.lit 4.0 * wk - wl)
    (-val3) / val4

/-- A term of `valus` in `gcnst1`, /repo/spectro/src/xcals.rs:391-404. -/
def gDiagValus (freq : Vec α) (f3 : T3 α) (ifrm1 : Ifrm1) (k m : Nat) : α :=
  let wk := sq (freq k)
  let val2 := sq (f3 k k m)
  if ifrm1.check k m then
    let val3 := one / (Arith.lit 8.0 * freq m)
    let val4 := one / (Arith.lit 32.0 * (Arith.lit 2.0 * freq k + freq m))
    (-val2) * (val3 + val4)
  else
    let wl := freq m * freq m
    let val3 := Arith.lit 8.0 * wk - wl
    let val4 := Arith.lit 16.0 * freq m * (Arith.lit 4.0 * wk - wl)
    val2 * val3 / val4

/-- `value` in `gcnst1`, /repo/spectro/src/xcals.rs:372-408. -/
def gDiag (i1mode : List Nat) (i2mode : List (Nat × Nat)) (f4 : T4 α) (f3 : T3 α) (freq : Vec α)
    (ifrm1 : Ifrm1) (rotcon : Vec α) (ia : Nat) (zmat : T3 α) (k k2 : Nat) : α :=
  let valu := sumL i1mode fun l => gDiagValu freq f3 ifrm1 k l
  let valus := sumL i2mode fun p => gDiagValus freq f3 ifrm1 k p.1
  let val7 := rotcon ia * sq (zmat k k2 2)
  (-f4 k k k k) / Arith.lit 48.0 + valu + valus + val7

/-- A term of `valu` in `make_gcnst`, /repo/spectro/src/xcals.rs:289-308. -/
def gOffValu (freq : Vec α) (f3 : T3 α) (ifrm2 : Ifrm2) (k l m : Nat) : α :=
  let (d1, d2, d3, d4) := dens freq k l m
  (-sq (f3 k l m)) *
    (if ifrm2.checkEither (l, k) m then (one / d1 + one / d2 + one / d4) / Arith.lit 8.0
    else if ifrm2.check (m, l) k then (one / d1 + one / d2 - one / d3) / Arith.lit 8.0
    else if ifrm2.check (m, k) l then (one / d1 + one / d3 + one / d4) / Arith.lit 8.0
    else -Arith.lit 0.5 * (freq m * freq k * freq l) / (-d1 * d2 * d3 * d4))

/-- A term of `valus` in `make_gcnst`, /repo/spectro/src/xcals.rs:315-337. -/
def gOffValus (freq : Vec α) (f3 : T3 α) (ifrm2 : Ifrm2) (k l m : Nat) : α :=
  let (d1, d2, d3, d4) := dens freq k l m
  (-sq (f3 k l m)) *
    (if ifrm2.check (l, m) k then one / (Arith.lit 8.0 * (Arith.lit 2.0 * freq l + freq k))
    else if ifrm2.check (k, m) l then one / (Arith.lit 8.0 * (Arith.lit 2.0 * freq k + freq l))
    else if ifrm2.check (l, k) m then (one / d1 + one / d2 + one / d4) / Arith.lit 8.0
    else if ifrm2.check (m, l) k then (one / d1 + one / d2 - one / d3) / Arith.lit 8.0
    else if ifrm2.check (m, k) l then (one / d1 + one / d3 + one / d4) / Arith.lit 8.0
    else freq m * freq k * freq l / (-d1 * d2 * d3 * d4))

/-- `value` in `make_gcnst` for the pairs `(k, k2)` and `(l, l2)`, /repo/spectro/src/xcals.rs:286-346. -/
def gOff (i1mode : List Nat) (i2mode : List (Nat × Nat)) (f3 : T3 α) (freq : Vec α)
    (ifrm2 : Ifrm2) (rotcon : Vec α) (ia ib ixyz : Nat) (zmat : T3 α) (k k2 l l2 : Nat) : α :=
  let valu := sumL i1mode fun m => gOffValu freq f3 ifrm2 k l m
  let valus := sumL i2mode fun p => gOffValus freq f3 ifrm2 k l p.1
  let val7 := -Arith.lit 2.0 * rotcon ib * sq (zmat k l ixyz) + rotcon ia * sq (zmat k l2 2) +
    Arith.lit 2.0 * rotcon ia * zmat k k2 2 * zmat l l2 2
  valu + valus + val7

/-- `make_gcnst` with `gcnst1`, /repo/spectro/src/xcals.rs:261-412. -/
def makeGcnst (i1mode : List Nat) (i2mode : List (Nat × Nat)) (f4 : T4 α) (f3 : T3 α) (freq : Vec α)
    (t : FermiChecks) (rotcon : Vec α) (ia ib ixyz : Nat) (zmat : T3 α) : Mat α :=
  (lowPairs i2mode.length).foldl (fun x p =>
    let k := i2mode.getD p.1 (0, 0)
    let l := i2mode.getD p.2 (0, 0)
    let value := gOff i1mode i2mode f3 freq t.ifrm2 rotcon ia ib ixyz zmat k.1 k.2 l.1 l.2
    setSym (setSym x k.1 l.1 value) k.2 l.2 value)
    (i2mode.foldl (fun x p =>
      let value := gDiag i1mode i2mode f4 f3 freq t.ifrm1 rotcon ia zmat p.1 p.2
      Mat.set (Mat.set x p.1 p.1 value) p.2 p.2 value) (fun _ _ => Arith.lit 0))

/-- `ixyz` of `setup_xcals`, /repo/spectro/src/xcals.rs:582-609. The counters only matter through being
positive; the warning printed at 599-604 is dropped. -/
def xcalsIxyz (rotor : Rotor) (i2mode : List (Nat × Nat)) (wila : Mat α) : Nat :=
  if rotor.isLinearR then 1
  else if i2mode.any fun p => Arith.le (Arith.abs (wila p.2 3)) (Arith.lit 0.000001) then 1
  else if i2mode.any fun p => Arith.le (Arith.abs (wila p.2 4)) (Arith.lit 0.000001) then 0
  else 1

/-- `Spectro::xcals`, /repo/spectro/src/xcals.rs:614-662, with `(ia, ib) = (2, 1)` of `setup_xcals`
(579-581). -/
def xcals (rotor : Rotor) (f4 : T4 α) (freq : Vec α) (f3 zmat : T3 α) (rotcon : Vec α)
    (fermi1 : List Fermi1) (fermi2 : List Fermi2) (modes : List Mode) (wila : Mat α) :
    Option (Mat α × Mat α × α) :=
  let m := Mode.partition modes
  let i1mode := m.1
  let i2mode := m.2.1
  let ixyz := xcalsIxyz rotor i2mode wila
  let t := makeFermiChecks fermi1 fermi2
  let e1 := makeE0 modes f4 f3 freq t.ifrm1 t.ifrmchk
  let e2 := makeE2 i1mode i2mode freq f4 f3 t.ifrm1
  let e3 := if rotor.isLinearR then Arith.lit 0.0 else makeE3 i1mode (i2mode.map (·.1)) freq f3 t
  let e0 := e1 + e2 + e3
  (nondegNondeg rotor i1mode f4 f3 freq t rotcon 2 zmat (fun _ _ => Arith.lit 0)).map fun x =>
    let x := nondegDeg i1mode i2mode f4 f3 freq t.ifrm2 rotcon 1 zmat x
    let x := degDeg i1mode i2mode f4 f3 freq t rotcon 2 1 ixyz zmat x
    (x, makeGcnst i1mode i2mode f4 f3 freq t rotcon 2 1 ixyz zmat, e0)

/-- `make_sym_funds`, /repo/spectro/src/lib.rs:925-970: the lists of harmonic and fundamental frequencies.
`none`: the `unwrap` of the absent g constants at 953. -/
def makeSymFunds (modes : List Mode) (freq : Vec α) (xcnst : Mat α) (gcnst : Option (Mat α)) :
    Option (List α × List α) :=
  let m := Mode.partition modes
  let i1mode := m.1
  let d := m.2.1.map (·.1)
  let first := i1mode.map fun i =>
    let val := i1mode.foldl (fun val j => if j ≠ i then val + Arith.lit 0.5 * xcnst i j else val)
      (freq i + xcnst i i * Arith.lit 2.0)
    d.foldl (fun val j => val + xcnst i j) val
  (d.mapM fun i => gcnst.map fun g =>
    let val := i1mode.foldl (fun val j => val + Arith.lit 0.5 * xcnst i j)
      (freq i + Arith.lit 3.0 * xcnst i i + g i i)
    d.foldl (fun val j => if j ≠ i then val + xcnst i j else val) val).map fun second =>
  (i1mode.map freq ++ d.map freq, first ++ second)

end Verif
