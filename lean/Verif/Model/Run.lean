import Verif.Model.Geom
import Verif.Model.Align
import Verif.Model.Rotate
import Verif.Model.Alpha
import Verif.Model.Quartic
import Verif.Model.Sextic
import Verif.Model.Xcals
import Verif.Model.Energy

/-!
# The run as a whole (/repo/spectro/src/run.rs, output.rs)
-/

namespace Verif

variable {α : Type} [Arith α] {ι : Type}

/-- `FACT2`, /repo/spectro/src/consts.rs:13. -/
def FACT2 : α := Arith.lit 4.359813653 / (Arith.lit 0.52917706 * Arith.lit 0.52917706)

/-- `slice.chunks(n)` collected, for `n > 0`, /repo/spectro/src/run.rs:360-361. -/
def chunks {β : Type} (n : Nat) (l : List β) : List (List β) :=
  if _h : n = 0 ∨ l = [] then [] else l.take n :: chunks n (l.drop n)
termination_by l.length
decreasing_by
  simp only [List.length_drop]
  have : l.length ≠ 0 := fun h0 => _h (Or.inr (List.length_eq_zero_iff.1 h0))
  omega

/-- `to_vec`, /repo/spectro/src/run.rs:357-363. `as_slice` of an nalgebra matrix is column-major. A matrix that is
not square panics (`none`), as does `chunks(0)` for the empty matrix. -/
def toVec (r c : Nat) (m : Mat α) : Option (List (List α)) :=
  if r ≠ c ∨ r = 0 then none
  else
    let slice := (List.range c).flatMap fun j => (List.range r).map fun i => m i j
    some (chunks r slice)

/-- The `while let Err(e)` loop of `compute_irreps_in`, /repo/spectro/src/run.rs:388-401: `last` is the answer for
the current `eps`, `ask` calls `irrep_approx` (`none` for `Err`), `a` is `Irrep::A`. The loop runs at
most `fuel` times, `none` means that it has not ended by then. -/
def irrepLoop (ask : α → Option ι) (a : ι) : Nat → α → Option ι → Option ι
  | _, _, some r => some r
  | 0, _, none => none
  | fuel + 1, eps, none =>
    if Arith.le (Arith.lit 0.1) eps then some a
    else
      let eps := eps * Arith.lit 10.0
      irrepLoop ask a fuel eps (ask eps)

/-- `compute_irreps_in`, /repo/spectro/src/run.rs:377-405, for a matrix with `cols` columns. `irrepOf` is the symmetry
code's answer for a displacement in the point group; the geometry and the group are part of it. -/
def computeIrreps (fuel : Nat) (irrepOf : Vec α → α → Option ι) (a : ι) (cols : Nat) (lxm : Mat α) (nvib : Nat) (eps : α) :
    Option (List ι) :=
  ((List.range cols).take nvib).mapM fun i =>
    let disp := fun r => lxm r i
    irrepLoop (irrepOf disp) a fuel eps (irrepOf disp eps)

/-- `Derivative`, /repo/spectro/src/lib.rs:77-81. -/
inductive Derivative (α : Type) where
  | harmonic (fc2 : Mat α)
  | cubic (fc2 : Mat α) (f3x : T3 α)
  | quartic (fc2 : Mat α) (f3x : T3 α) (f4x : T4 α)

/-- `Derivative::fc2`, /repo/spectro/src/lib.rs:85-91. -/
def Derivative.fc2 : Derivative α → Mat α
  | harmonic f => f
  | cubic f _ => f
  | quartic f _ _ => f

/-- `Derivative::is_harmonic`, /repo/spectro/src/lib.rs:97-99. -/
def Derivative.isHarmonic : Derivative α → Bool
  | harmonic _ => true
  | _ => false

/-- The fields of `Spectro` the run uses, /repo/spectro/src/lib.rs:112-150. `linear` is the answer of
`Rotor::is_linear` and `buddy` that of the symmetry code used by `bdegnl`. -/
structure SpectroIn (α : Type) where
  header : List Int
  natom : Nat
  n3n : Nat
  nvib : Nat
  i2vib : Nat
  rotor : Rotor
  linear : Bool
  axes : Mat α
  primat : Vec α
  rotcon : Vec α
  weights : Vec α
  pos : Nat → Nat → α
  iatom : Nat
  axisOrder : Nat
  buddy : Option Nat

/-- What the run gets from outside /repo: the eigensolver for the secular equations and for two-by-two matrices, the
irrep search with its bound on the number of rounds. -/
structure Oracles (α ι : Type) where
  eigen : Mat α → List α × Mat α
  eigen2 : Eigen2 α
  fuel : Nat
  irrepOf : Vec α → α → Option ι
  irrepA : ι

/-- `Output`, /repo/spectro/src/output.rs:15-51, without the geometry (a copy of the input's). -/
structure Output (α ι : Type) where
  harms : List α
  funds : List α
  corrs : List α
  rots : List (Rot α)
  rotEquil : Vec α
  irreps : List ι
  quartic : Quartic α
  sextic : Sextic α
  zpt : α
  lxm : List (List α)
  lx : List (List α)
  linear : Bool
  resonances : Restst

/-- What the harmonic part of `run` hands on, /repo/spectro/src/run.rs:177-199. -/
structure ModesOut (α ι : Type) where
  freq : List α
  lxm : Mat α
  lx : Mat α
  irreps : List ι

/-- The frequencies as a vector; `freq[i]` past the end panics in the code and is not reached for `i < n3n`,
/repo/spectro/src/run.rs:190. -/
def vecOf (l : List α) : Vec α := fun i => l.getD i (Arith.lit 0)

/-- The call of `bdegnl` in `run`, /repo/spectro/src/run.rs:195-197. -/
def runAlign (s : SpectroIn α) (freq : List α) (lxm lx : Mat α) : Option (Mat α × Mat α) :=
  if s.rotor.isSymTop then
    bdegnl ⟨s.linear, s.nvib, s.n3n, s.natom, s.iatom, s.axisOrder, s.buddy⟩ (vecOf freq) s.weights lxm lx
  else some (lxm, lx)

/-- The harmonic part of `run`, /repo/spectro/src/run.rs:177-199. -/
def runModes (s : SpectroIn α) (o : Oracles α ι) (fc2 : Mat α) : Option (ModesOut α ι) := do
  let rotated := rot2nd s.natom s.axes fc2
  let fc2 : Mat α := fun i j => FACT2 * rotated i j
  let sqm : Vec α := fun i => Arith.lit 1.0 / Arith.sqrt (s.weights i)
  let fxm := formSec s.n3n fc2 sqm
  let dec := symmEigenDecomp (o.eigen fxm).1 (o.eigen fxm).2 true
  let freq := toWavenumbers dec.1
  let lx := makeLx s.n3n sqm dec.2
  let p ← runAlign s freq dec.2 lx
  let irreps ← computeIrreps o.fuel o.irrepOf o.irrepA s.n3n p.1 s.nvib (Arith.lit 1e-4)
  return ⟨freq, p.1, p.2, irreps⟩

/-- `Restst::default()`, used for a harmonic run, /repo/spectro/src/run.rs:210. -/
def Restst.empty : Restst := ⟨[], [], [], [], [], [], [], [], []⟩

/-- `&freq.as_slice()[..nvib]`, /repo/spectro/src/run.rs:203, 270; too short a slice panics. -/
def firstFreqs (freq : List α) (nvib : Nat) : Option (List α) :=
  if freq.length < nvib then none else some (freq.take nvib)

/-- `f3qcm[(i, j, k)]` as a function; inside the bounds the lookup succeeds, /repo/spectro/src/f3qcm.rs:24-32. -/
def f3Of (f : F3qcm α) : T3 α := fun i j k => (F3qcm.get f i j k).getD (Arith.lit 0)

/-- `f4qcm[(i, j, k, l)]` as a function, see `f3Of`, /repo/spectro/src/f4qcm.rs:26-34. -/
def f4Of (f : F4qcm α) : T4 α := fun i j k l => (F4qcm.get f i j k l).getD (Arith.lit 0)

/-- The anharmonicity constants in `finish`, /repo/spectro/src/run.rs:256-265. -/
def finishX (s : SpectroIn α) (freq : Vec α) (f3 : T3 α) (f4 : T4 α) (zmat : T3 α) (wila : Mat α) (r : Restst) :
    Option (Mat α × Option (Mat α) × α) :=
  if s.rotor.isSymTop then
    (xcals s.rotor f4 freq f3 zmat s.rotcon r.fermi1 r.fermi2 r.modes wila).map fun t => (t.1, some t.2.1, t.2.2)
  else
    let t := xcalc s.nvib f4 freq f3 zmat s.rotcon r.modes r.fermi1 r.fermi2
    some (t.1, none, t.2)

/-- The harmonic frequencies and fundamentals in `finish`, /repo/spectro/src/run.rs:266-273. -/
def finishFunds (s : SpectroIn α) (freq : List α) (x : Mat α) (g : Option (Mat α)) (r : Restst) :
    Option (List α × List α) :=
  if s.rotor.isSymTop then makeSymFunds r.modes (vecOf freq) x g
  else (firstFreqs freq s.nvib).map fun h => (h, makeFunds (vecOf freq) s.nvib x)

/-- The vibrationally averaged rotational constants in `finish`, /repo/spectro/src/run.rs:311-325. -/
def finishRots (s : SpectroIn α) (freq : Vec α) (f3 zmat : T3 α) (wila : Mat α) (r : Restst) (q : Quartic α) :
    Option (List (Rot α)) :=
  if s.rotor.isSymTop || s.rotor == .diatomic then do
    let rotnst ← alphas s.rotor s.rotcon s.primat freq wila zmat f3 r.modes r.states r.coriolis
    if s.rotor = .sphericalTop then none
    else rots s.rotor r.states.length s.rotcon rotnst r.states q
  else do
    let rotnst ← alphaa s.nvib s.rotcon (alpha s.nvib s.rotcon s.primat freq wila zmat f3 r.coriolis) r.modes r.states
    rota s.header (s.nvib + 1) s.rotcon rotnst r.states q

/-- `Spectro::finish`, /repo/spectro/src/run.rs:234-343, without the optional polyad step (see `finishPolyad`; its only effect on the
result, the initial energies, is overwritten by `enrgy`) and the printing. -/
def finish (s : SpectroIn α) (o : Oracles α ι) (freq : List α) (f3 : T3 α) (f4 : T4 α) (irreps : List ι)
    (lxm lx : Mat α) : Option (Output α ι) := do
  let w := vecOf freq
  let zmat := makeZmat s.nvib s.natom lxm
  let wila := wilsonA s.nvib s.natom s.pos lxm s.weights
  let quartic ← Quartic.new s.rotor s.nvib s.rotcon s.primat w wila
  let r ← reststNew s.rotor s.nvib s.i2vib zmat f3 w
  let x ← finishX s w f3 f4 zmat wila r
  let hf ← finishFunds s freq x.1 x.2.1 r
  let zc ← correctedFunds o.eigen2 w x.1 x.2.1 r f3 x.2.2 (List.replicate r.states.length (Arith.lit 0.0))
  let rots ← finishRots s w f3 zmat wila r quartic
  let sextic := Sextic.new s.rotor s.nvib freq.length s.rotcon s.primat w wila zmat f3
  let vlxm ← toVec s.n3n s.n3n lxm
  let vlx ← toVec s.n3n s.n3n lx
  return { harms := hf.1, funds := hf.2, corrs := zc.2, rots := rots, rotEquil := s.rotcon, irreps := irreps
           quartic := quartic, sextic := sextic, zpt := zc.1, lxm := vlxm, lx := vlx, linear := s.linear
           resonances := r }

/-- `Spectro::run`, /repo/spectro/src/run.rs:177-231. -/
def run (s : SpectroIn α) (o : Oracles α ι) (d : Derivative α) : Option (Output α ι) := do
  let m ← runModes s o d.fc2
  match d with
  | .harmonic _ =>
    let harms ← firstFreqs m.freq s.nvib
    let vlxm ← toVec s.n3n s.n3n m.lxm
    let vlx ← toVec s.n3n s.n3n m.lx
    return { harms := harms, funds := [], corrs := [], rots := [], rotEquil := s.rotcon, irreps := m.irreps
             quartic := Quartic.default, sextic := Sextic.default, zpt := Arith.lit 0, lxm := vlxm, lx := vlx
             linear := s.linear, resonances := Restst.empty }
  | .cubic _ _ => none
  | .quartic _ f3x f4x =>
    let w := vecOf m.freq
    let f3x := rot3rd s.n3n s.natom s.axes f3x
    let f3qcm := force3 s.n3n f3x m.lx s.nvib w
    let f4x := rot4th s.n3n s.natom s.axes f4x
    let f4qcm ← force4 s.n3n f4x m.lx s.nvib w
    finish s o m.freq (f3Of f3qcm) (f4Of f4qcm) m.irreps m.lxm m.lx

/-- One line of the frequency table, /repo/spectro/src/output.rs:89-99. -/
structure TableRow (α ι : Type) where
  mode : Nat
  symm : ι
  harm : α
  fund : α
  corr : α

/-- The frequency table in `Output::fmt`, /repo/spectro/src/output.rs:89-99; an index past the end panics. The
rounding to one decimal is left out. -/
def freqTable (out : Output α ι) : Option (List (TableRow α ι)) :=
  (List.range out.harms.length).mapM fun i => do
    let s ← out.irreps[i]?
    let h ← out.harms[i]?
    let f ← out.funds[i]?
    let c ← out.corrs[i]?
    return ⟨i + 1, s, h, f, c⟩

end Verif
