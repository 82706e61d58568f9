import Verif.Model.Fermi

/-!
# Vibrationally averaged rotational constants (/repo/spectro/src/lib.rs:186-274, alphas.rs)
-/

namespace Verif

variable {α : Type} [Arith α]

/-- `ALPHA_CONST`, /repo/spectro/src/consts.rs:45. -/
def ALPHA_CONST : α := Arith.lit 0.086112

/-- `tmp.is_some() && *tmp.unwrap() == x`, e.g. /repo/spectro/src/lib.rs:214-215. -/
def isAxis (tmp : Option Nat) (x : Nat) : Bool := tmp == some x

/-- The resonant update `valu2 -= 0.5 * z^2 * (wi - wj)^2 / (wj * (wi + wj))`,
/repo/spectro/src/lib.rs:216-219, alphas.rs:109-112 and six more places in alphas.rs. -/
def corReg (s z wi wj : α) : α :=
  s - Arith.lit 0.5 * sq z * sq (wi - wj) / (wj * (wi + wj))

/-- The non-resonant update `valu2 += z^2 * (3 wi^2 + wj^2) / (wi^2 - wj^2)`,
/repo/spectro/src/lib.rs:221-223, alphas.rs:114-115, 141-142. -/
def corFull (s z wi wj : α) : α :=
  s + sq z * (Arith.lit 3.0 * sq wi + sq wj) / (sq wi - sq wj)

/-- The non-resonant update with the quotient computed first, `valu3 = (3 wi^2 + wj^2) / (wi^2 - wj^2);
valu2 += z^2 * valu3`, /repo/spectro/src/alphas.rs:168, 176, 184 and the like. -/
def corFull' (s z wi wj : α) : α :=
  s + sq z * ((Arith.lit 3.0 * sq wi + sq wj) / (sq wi - sq wj))

/-- One entry of the matrix computed by `alpha`, /repo/spectro/src/lib.rs:197-229. `primat` are the
principal moments, `f3` is the lookup into the packed cubic table. -/
def alphaEntry (nvib : Nat) (rotcon primat freq : Vec α) (wila : Mat α) (zmat f3 : T3 α)
    (icorol : HMap (Nat × Nat)) (i x : Nat) : α :=
  let ii := ioff (x + 2) - 1
  let valu0 := Arith.lit 2.0 * sq (rotcon x) / freq i
  let valu1 := sumTo 3 (fun y => sq (wila i (ioff (max x y + 1) + min x y)) / primat y) * Arith.lit 0.75
  let valu2 := (List.range nvib).foldl (fun s j =>
    if j ≠ i then
      if isAxis (icorol (i, j)) x then corReg s (zmat i j x) (freq i) (freq j)
      else corFull s (zmat i j x) (freq i) (freq j)
    else s) (Arith.lit 0)
  let valu3 := sumTo nvib fun j => wila j ii * f3 i i j * freq i / Arith.powf15 (freq j)
  valu0 * (valu1 + valu2 + valu3 * ALPHA_CONST)

/-- `Spectro::alpha`, /repo/spectro/src/lib.rs:187-233: every entry of the `nvib × 3` matrix is written
once, so the matrix is the function of its entries. -/
def alpha (nvib : Nat) (rotcon primat freq : Vec α) (wila : Mat α) (zmat f3 : T3 α)
    (coriolis : List Coriolis) : Mat α :=
  let icorol := makeIcorol coriolis
  fun i x => alphaEntry nvib rotcon primat freq wila zmat f3 icorol i x

/-- One addition in the loop over modes, /repo/spectro/src/lib.rs:254-268; anything but a non-degenerate
mode and an `I1st` state is `todo!()`, an index out of bounds panics. -/
def alphaaStep (al : Mat α) (modes : List Mode) (st : State) (axis : Nat) (suma : α) (ii : Nat) :
    Option α :=
  match modes[ii]? with
  | some (.i1 i) => match st with
    | .i1st v => (v[ii]?).map fun q => suma + al i axis * (ofNat q + Arith.lit 0.5)
    | _ => none
  | _ => none

/-- `rotnst[(n, axis)]` of `alphaa`, /repo/spectro/src/lib.rs:253-270. -/
def alphaaEntry (rotcon : Vec α) (al : Mat α) (modes : List Mode) (states : List State) (n axis : Nat) :
    Option α :=
  (states[n]?).bind fun st =>
    ((List.range (Mode.count modes).1).foldlM (alphaaStep al modes st axis) (Arith.lit 0)).map fun suma =>
      rotcon axis + suma

/-- `Spectro::alphaa`, /repo/spectro/src/lib.rs:237-274: the `(nvib + 1) × 3` matrix, or a panic. The
loops run over the axes and then the states; each entry is written once. When there are no non-degenerate
modes the inner loop is empty and `states[n]` is not evaluated; the model evaluates it (an asymmetric top
has `nvib` of them). -/
def alphaa (nvib : Nat) (rotcon : Vec α) (al : Mat α) (modes : List Mode) (states : List State) :
    Option (Mat α) :=
  ((List.range 3).flatMap fun axis => (List.range (nvib + 1)).map fun n => (n, axis)).foldlM
    (fun m p => (alphaaEntry rotcon al modes states p.1 p.2).map fun v => Mat.set m p.1 p.2 v)
    (fun _ _ => Arith.lit 0)

/-- The axes and components used for symmetric tops, /repo/spectro/src/alphas.rs:26-31. -/
structure SymAxes where
  ia : Nat
  ib : Nat
  ic : Nat
  iaia : Nat
  iaib : Nat
  ibib : Nat
  ibic : Nat

/-- /repo/spectro/src/alphas.rs:26-31. -/
def symAxes (rotor : Rotor) : SymAxes :=
  if rotor = .prolateSymmTop then ⟨2, 1, 0, 5, 3, 0, 1⟩ else ⟨2, 1, 0, 5, 4, 2, 1⟩

/-- Everything `make_alpha` reads, /repo/spectro/src/alphas.rs:71-89. -/
structure AlphaIn (α : Type) where
  rotor : Rotor
  rotcon : Vec α
  primat : Vec α
  freq : Vec α
  wila : Mat α
  zmat : T3 α
  f3 : T3 α
  icorol : HMap (Nat × Nat)
  i1mode : List Nat
  i2mode : List (Nat × Nat)
  ax : SymAxes

/-- The two perpendicular updates for a pair of modes, /repo/spectro/src/alphas.rs:168-184, 213-229,
244-260: first axis `ic`, then `ib`. -/
def corPerp (p : AlphaIn α) (s : α) (k j : Nat) : α :=
  let tmp := p.icorol (j, k)
  let wk := p.freq k
  let wj := p.freq j
  let s := if isAxis tmp p.ax.ic then corReg s (p.zmat k j p.ax.ic) wk wj
    else corFull' s (p.zmat k j p.ax.ic) wk wj
  if isAxis tmp p.ax.ib then corReg s (p.zmat k j p.ax.ib) wk wj
  else corFull' s (p.zmat k j p.ax.ib) wk wj

/-- `alpha[(k, ia)]` of the non-degenerate mode at position `kk`, /repo/spectro/src/alphas.rs:92-119. -/
def alphaA1 (p : AlphaIn α) (kk : Nat) : α :=
  let k := p.i1mode.getD kk 0
  let valu0 := Arith.lit 2.0 * sq (p.rotcon p.ax.ia) / p.freq k
  let valu1 := Arith.lit 0.75 * sq (p.wila k p.ax.iaia) / p.primat p.ax.ia
  let valu2 := p.i1mode.foldl (fun s j =>
    if j = k then s
    else if isAxis (p.icorol (j, k)) p.ax.ia then corReg s (p.zmat j k p.ax.ia) (p.freq k) (p.freq j)
    else corFull s (p.zmat j k p.ax.ia) (p.freq k) (p.freq j)) (Arith.lit 0)
  let valu3 := sumL p.i1mode fun j =>
    p.wila j p.ax.iaia * p.f3 j k k * p.freq k / Arith.powf15 (p.freq j)
  valu0 * (valu1 + valu2 + ALPHA_CONST * valu3)

/-- `alpha[(k, ia)]` of the degenerate mode at position `kk`, /repo/spectro/src/alphas.rs:122-153. -/
def alphaA2 (p : AlphaIn α) (kk : Nat) : α :=
  let k := (p.i2mode.getD kk (0, 0)).1
  let valu0 := Arith.lit 2.0 * sq (p.rotcon p.ax.ia) / p.freq k
  let valu1 := Arith.lit 0.75 * sq (p.wila k p.ax.iaib) / p.primat p.ax.ib
  let valu2 := (List.range p.i2mode.length).foldl (fun s jj =>
    let j := p.i2mode.getD jj (0, 0)
    if jj = kk then s
    else if isAxis (p.icorol (j.1, k)) p.ax.ia then
      corReg s (p.zmat k j.2 p.ax.ia) (p.freq k) (p.freq j.1)
    else corFull s (p.zmat k j.2 p.ax.ia) (p.freq k) (p.freq j.1)) (Arith.lit 0)
  let valu3 := sumL p.i1mode fun j =>
    p.wila j p.ax.iaia * p.f3 j k k * p.freq k / Arith.powf15 (p.freq j)
  valu0 * (valu1 + valu2 + ALPHA_CONST * valu3)

/-- `alpha[(k, ib)]` of the non-degenerate mode at position `kk`, /repo/spectro/src/alphas.rs:156-195. -/
def alphaB1 (p : AlphaIn α) (kk : Nat) : α :=
  let k := p.i1mode.getD kk 0
  let valu0 := Arith.lit 2.0 * sq (p.rotcon p.ax.ib) / p.freq k
  let valu1 := Arith.lit 0.75 * (sq (p.wila k p.ax.ibib) + sq (p.wila k p.ax.ibic)) / p.primat p.ax.ib
  let valu2 := p.i2mode.foldl (fun s j => corPerp p s k j.1) (Arith.lit 0)
  let valu4 := sumL p.i1mode fun j =>
    p.f3 j k k * p.wila j p.ax.ibib * p.freq k / Arith.powf15 (p.freq j)
  valu0 * (valu1 + valu2 + ALPHA_CONST * valu4)

/-- `alpha[(k, ib)]` of the degenerate mode at position `kk`, /repo/spectro/src/alphas.rs:197-271. -/
def alphaB2 (p : AlphaIn α) (kk : Nat) : α :=
  let k := (p.i2mode.getD kk (0, 0)).1
  let valu0 := Arith.lit 2.0 * sq (p.rotcon p.ax.ib) / p.freq k
  let v12 : α × α := if p.rotor = .linear then (Arith.lit 0.0, Arith.lit 0.0) else
    (Arith.lit 0.375 * (Arith.lit 2.0 * sq (p.wila k p.ax.ibib) / p.primat p.ax.ib +
        sq (p.wila k p.ax.iaib) / p.primat p.ax.ia),
      (List.range p.i2mode.length).foldl (fun s jj =>
        if jj = kk then s else corPerp p s k (p.i2mode.getD jj (0, 0)).1) (Arith.lit 0))
  let valu4 := p.i1mode.foldl (fun s j => corPerp p s k j) (Arith.lit 0) * Arith.lit 0.5
  let valu5 := sumL p.i1mode fun j =>
    p.f3 j k k * p.wila j p.ax.ibib * p.freq k / Arith.powf15 (p.freq j)
  valu0 * (v12.1 + v12.2 + valu4 + ALPHA_CONST * valu5)

/-- `Spectro::make_alpha`, /repo/spectro/src/alphas.rs:71-274: four loops writing the rows of the
non-degenerate modes and of the first components of the degenerate ones, starting from zeros. -/
def makeAlpha (p : AlphaIn α) : Mat α :=
  let m : Mat α := fun _ _ => Arith.lit 0
  let m := (List.range p.i1mode.length).foldl (fun m kk =>
    Mat.set m (p.i1mode.getD kk 0) p.ax.ia (alphaA1 p kk)) m
  let m := (List.range p.i2mode.length).foldl (fun m kk =>
    Mat.set m (p.i2mode.getD kk (0, 0)).1 p.ax.ia (alphaA2 p kk)) m
  let m := (List.range p.i1mode.length).foldl (fun m kk =>
    Mat.set m (p.i1mode.getD kk 0) p.ax.ib (alphaB1 p kk)) m
  (List.range p.i2mode.length).foldl (fun m kk =>
    Mat.set m (p.i2mode.getD kk (0, 0)).1 p.ax.ib (alphaB2 p kk)) m

/-- `rotnst[(n, x)]` of `alphas`, /repo/spectro/src/alphas.rs:53-64; out-of-bounds panics. -/
def alphasEntry (rotcon : Vec α) (al : Mat α) (i1mode : List Nat) (i2mode : List (Nat × Nat))
    (sp : StatePartition) (n x : Nat) : Option α := do
  let s ← (List.range i1mode.length).foldlM (fun s ii => do
    let v ← sp.i1sts[n]?
    let q ← v[ii]?
    return s + al (i1mode.getD ii 0) x * (ofNat q + Arith.lit 0.5)) (Arith.lit 0)
  let s ← (List.range i2mode.length).foldlM (fun s ii => do
    let v ← sp.i2sts[n]?
    let q ← v[ii]?
    return s + al (i2mode.getD ii (0, 0)).1 x * (ofNat q.1 + Arith.lit 1.0)) s
  return rotcon x + s

/-- `Spectro::alphas`, /repo/spectro/src/alphas.rs:13-68: spherical tops are `todo!()`; linear molecules
only get the axis `ib`. `Rotor::is_linear` (crate `symm`) is taken to be true for `Linear` only. -/
def alphas (rotor : Rotor) (rotcon primat freq : Vec α) (wila : Mat α) (zmat f3 : T3 α)
    (modes : List Mode) (states : List State) (coriolis : List Coriolis) : Option (Mat α) :=
  if rotor = .sphericalTop then none else
  let ax := symAxes rotor
  let m := Mode.partition modes
  let al := makeAlpha ⟨rotor, rotcon, primat, freq, wila, zmat, f3, makeIcorol coriolis, m.1, m.2.1, ax⟩
  let axes := if rotor = .linear then [ax.ib] else [ax.ia, ax.ib]
  (axes.flatMap fun x => (List.range states.length).map fun n => (n, x)).foldlM
    (fun r p => (alphasEntry rotcon al m.1 m.2.1 (State.partition states) p.1 p.2).map fun v =>
      Mat.set r p.1 p.2 v)
    (fun _ _ => Arith.lit 0)

end Verif
