import Verif.Model.Fermi

/-!
# Anharmonic constants of asymmetric tops and the zero-point constant
(/repo/spectro/src/lib.rs:740-822, utils.rs:262-337)
-/

namespace Verif

variable {α : Type} [Arith α]

/-- `d1`, `d2`, `d3`, `d4` (the last one as in lib.rs), /repo/spectro/src/lib.rs:781-784, xcals.rs:191-194
and four more places in xcals.rs. -/
def dens (freq : Vec α) (k l m : Nat) : α × α × α × α :=
  (freq k + freq l + freq m, freq k - freq l + freq m, freq k + freq l - freq m,
    -freq k + freq l + freq m)

/-- `1.0`, /repo/spectro/src/lib.rs:788. -/
def one : α := Arith.lit 1.0

/-- `xcnst[(k, k)]` of `xcalc`, /repo/spectro/src/lib.rs:753-770; `f3`, `f4` are the lookups into the
packed tables. -/
def xDiag (nvib : Nat) (f4 : T4 α) (freq : Vec α) (f3 : T3 α) (chk : Nat → Nat → Nat → Nat) (k : Nat) : α :=
  let wk := sq (freq k)
  let valu := (List.range nvib).foldl (fun valu l =>
    let val2 := sq (f3 k k l)
    if chk k k l ≠ 0 then
      let val3 := one / (Arith.lit 8.0 * freq l)
      let val4 := one / (Arith.lit 32.0 * (Arith.lit 2.0 * freq k + freq l))
      valu - val2 * (val3 + val4)
    else
      let wl := sq (freq l)
      let val3 := Arith.lit 8.0 * wk - Arith.lit 3.0 * wl
      let val4 := Arith.lit 16.0 * freq l * (Arith.lit 4.0 * wk - wl)
      valu - val2 * val3 / val4) (Arith.lit 0.0)
  f4 k k k k / Arith.lit 16.0 + valu

/-- The factor of `-f3qcm[(k, l, m)]^2`, /repo/spectro/src/lib.rs:786-808. -/
def xFac (freq : Vec α) (chk : Nat → Nat → Nat → Nat) (k l m : Nat) : α :=
  let (d1, d2, d3, d4) := dens freq k l m
  if chk l m k ≠ 0 ∧ m = l then one / (Arith.lit 8.0 * (Arith.lit 2.0 * freq l + freq k))
  else if chk k m l ≠ 0 ∧ k = m then one / (Arith.lit 8.0 * (Arith.lit 2.0 * freq k + freq l))
  else if chk k l m ≠ 0 then one * (one / d1 + one / d2 + one / d4) / Arith.lit 8.0
  else if chk l m k ≠ 0 then one * (one / d1 + one / d2 - one / d3) / Arith.lit 8.0
  else if chk k m l ≠ 0 then (one / d1 - one / d3 + one / d4) / Arith.lit 8.0
  else Arith.lit 0.5 * freq m * (sq (freq m) - sq (freq k) - sq (freq l)) / (-d1 * d2 * d3 * d4)

/-- `value` for `k > l` in `xcalc`, /repo/spectro/src/lib.rs:774-815. -/
def xOff (nvib : Nat) (f4 : T4 α) (freq : Vec α) (f3 : T3 α) (zmat : T3 α) (rotcon : Vec α)
    (chk : Nat → Nat → Nat → Nat) (k l : Nat) : α :=
  let v2 := (List.range nvib).foldl (fun v2 m => v2 - f3 k k m * f3 l l m / (Arith.lit 4.0 * freq m))
    (Arith.lit 0.0)
  let v3 := sumTo nvib fun m => -sq (f3 k l m) * xFac freq chk k l m
  let val7 := rotcon 0 * sq (zmat k l 0) + rotcon 1 * sq (zmat k l 1) + rotcon 2 * sq (zmat k l 2)
  let v4 := (freq k / freq l + freq l / freq k) * val7
  f4 k k l l / Arith.lit 4.0 + v2 + v3 + v4

/-- The pairs of `for k in 1..n { for l in 0..k { .. }}`, /repo/spectro/src/lib.rs:772-773. -/
def lowPairs (n : Nat) : List (Nat × Nat) :=
  (List.range' 1 (n - 1)).flatMap fun k => (List.range k).map fun l => (k, l)

/-- The matrix computed by `xcalc`, /repo/spectro/src/lib.rs:751-819. -/
def xcalcMat (nvib : Nat) (f4 : T4 α) (freq : Vec α) (f3 : T3 α) (zmat : T3 α) (rotcon : Vec α)
    (chk : Nat → Nat → Nat → Nat) : Mat α :=
  let x := (List.range nvib).foldl (fun x k => Mat.set x k k (xDiag nvib f4 freq f3 chk k))
    (fun _ _ => Arith.lit 0)
  (lowPairs nvib).foldl (fun x p =>
    let value := xOff nvib f4 freq f3 zmat rotcon chk p.1 p.2
    Mat.set (Mat.set x p.1 p.2 value) p.2 p.1 value) x

/-- One term of the `kkl` sum of `make_e0`, /repo/spectro/src/utils.rs:285-295. -/
def e0kkl (freq : Vec α) (f3 : T3 α) (ifrm1 : Ifrm1) (k l : Nat) : α :=
  let wk := sq (freq k)
  let wl := sq (freq l)
  let zval1 := sq (f3 k k l)
  if ifrm1 k = some l then
    let delta := Arith.lit 2.0 * freq k + freq l
    Arith.lit 3.0 * zval1 / (Arith.lit 128.0 * delta)
  else
    let delta := Arith.lit 4.0 * wk - wl
    Arith.lit 3.0 * zval1 * freq l / (Arith.lit 64.0 * delta)

/-- One term subtracted in the `klm` sum of `make_e0`, /repo/spectro/src/utils.rs:303-316. Here `d4` is
`freq[k] - freq[l] - freq[m]`. -/
def e0klm (freq : Vec α) (f3 : T3 α) (chk : Nat → Nat → Nat → Nat) (k l m : Nat) : α :=
  let zval3 := sq (f3 k l m)
  let xklm := freq k * freq l * freq m
  let d1 := freq k + freq l + freq m
  let d2 := freq k - freq l + freq m
  let d3 := freq k + freq l - freq m
  let d4 := freq k - freq l - freq m
  if chk k l m ≠ 0 then zval3 * (one / d1 + one / d2 + one / d4) / Arith.lit 16.0
  else if chk l m k ≠ 0 then zval3 * (one / d1 + one / d2 - one / d3) / Arith.lit 16.0
  else if chk k m l ≠ 0 then zval3 * (one / d1 - one / d3 + one / d4) / Arith.lit 16.0
  else zval3 * xklm / (Arith.lit 4.0 * d1 * d2 * d3 * d4)

/-- `make_e0`, /repo/spectro/src/utils.rs:262-321. -/
def makeE0 (modes : List Mode) (f4 : T4 α) (f3 : T3 α) (freq : Vec α) (ifrm1 : Ifrm1)
    (chk : Nat → Nat → Nat → Nat) : α :=
  let i1mode := (Mode.partition modes).1
  let f3k := sumL i1mode fun k => -Arith.lit 7.0 * sq (f3 k k k) / (Arith.lit 576.0 * freq k)
  let f4k := sumL i1mode fun k => f4 k k k k / Arith.lit 64.0
  let f3kkl := sumL (i1mode.flatMap fun k => (i1mode.filter fun l => k ≠ l).map fun l => (k, l))
    fun p => e0kkl freq f3 ifrm1 p.1 p.2
  let f3klm := (i1mode.flatMap fun k => (i1mode.filter fun l => k > l).flatMap fun l =>
      (i1mode.filter fun m => l > m).map fun m => (k, l, m)).foldl
    (fun v p => v - e0klm freq f3 chk p.1 p.2.1 p.2.2) (Arith.lit 0.0)
  f4k + f3k + f3kkl + f3klm

/-- `Spectro::xcalc`, /repo/spectro/src/lib.rs:740-822. -/
def xcalc (nvib : Nat) (f4 : T4 α) (freq : Vec α) (f3 : T3 α) (zmat : T3 α) (rotcon : Vec α)
    (modes : List Mode) (fermi1 : List Fermi1) (fermi2 : List Fermi2) : Mat α × α :=
  let t := makeFermiChecks fermi1 fermi2
  (xcalcMat nvib f4 freq f3 zmat rotcon t.ifrmchk, makeE0 modes f4 f3 freq t.ifrm1 t.ifrmchk)

/-- `make_funds`, /repo/spectro/src/utils.rs:325-337. -/
def makeFunds (freq : Vec α) (nvib : Nat) (xcnst : Mat α) : List α :=
  (List.range nvib).map fun i =>
    (List.range nvib).foldl (fun val j => if j ≠ i then val + Arith.lit 0.5 * xcnst i j else val)
      (freq i + Arith.lit 2.0 * xcnst i i)

end Verif
