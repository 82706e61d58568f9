import Verif.Model.Polyad
import Verif.Model.Run

/-!
# Runs with the cargo feature `polyad` (/repo/spectro/src/run.rs:277-293)
-/

namespace Verif

variable {α ι : Type} [Arith α]

/-- The loop of `resona` which writes the energies of the deperturbed states, /repo/spectro/src/polyads.rs:63-82; a state
shorter than the number of modes is caught by `resona` before. -/
def resonaEnergies (iirst : List (List Nat)) (i1mode : List Nat) (freq : Vec α) (xcnst : Mat α) (e0 : α) (eng : List α) :
    Option (List α) :=
  (List.range iirst.length).foldlM (fun eng ist =>
    setAt eng ist (resonaEnergy i1mode freq xcnst e0 fun ii => (iirst.getD ist []).getD ii 0)) eng

/-- The call of `resona` in `finish`, /repo/spectro/src/run.rs:277-299, as the energies it leaves in `eng`; the returned
matrix is dropped there, what it prints is left out. -/
def polyadStep (s : SpectroIn α) (freq : Vec α) (f3 : T3 α) (f4 : T4 α) (zmat : T3 α) (xcnst : Mat α) (e0 : α) (r : Restst)
    (eng : List α) : Option (List α) :=
  if s.rotor.isSymTop then some eng
  else do
    let i1mode := (Mode.partition r.modes).1
    let _ ← resona iirstTable eng.length i1mode freq s.rotcon zmat f3 f4 xcnst e0 r.fermi1 r.fermi2
    resonaEnergies iirstTable i1mode freq xcnst e0 eng

/-- `Spectro::finish` compiled with the feature `polyad`, /repo/spectro/src/run.rs:234-343: `finish` with the call of
`resona` before `enrgy`. -/
def finishPolyad (s : SpectroIn α) (o : Oracles α ι) (freq : List α) (f3 : T3 α) (f4 : T4 α) (irreps : List ι)
    (lxm lx : Mat α) : Option (Output α ι) := do
  let w := vecOf freq
  let zmat := makeZmat s.nvib s.natom lxm
  let wila := wilsonA s.nvib s.natom s.pos lxm s.weights
  let quartic ← Quartic.new s.rotor s.nvib s.rotcon s.primat w wila
  let r ← reststNew s.rotor s.nvib s.i2vib zmat f3 w
  let x ← finishX s w f3 f4 zmat wila r
  let hf ← finishFunds s freq x.1 x.2.1 r
  let eng ← polyadStep s w f3 f4 zmat x.1 x.2.2 r (List.replicate r.states.length (Arith.lit 0.0))
  let zc ← correctedFunds o.eigen2 w x.1 x.2.1 r f3 x.2.2 eng
  let rots ← finishRots s w f3 zmat wila r quartic
  let sextic := Sextic.new s.rotor s.nvib freq.length s.rotcon s.primat w wila zmat f3
  let vlxm ← toVec s.n3n s.n3n lxm
  let vlx ← toVec s.n3n s.n3n lx
  return { harms := hf.1, funds := hf.2, corrs := zc.2, rots := rots, rotEquil := s.rotcon, irreps := irreps
           quartic := quartic, sextic := sextic, zpt := zc.1, lxm := vlxm, lx := vlx, linear := s.linear
           resonances := r }

/-- `Spectro::run` compiled with the feature `polyad`, /repo/spectro/src/run.rs:177-231; a harmonic run does not get to
`finish`, and a cubic one panics. -/
def runPolyad (s : SpectroIn α) (o : Oracles α ι) (d : Derivative α) : Option (Output α ι) :=
  match d with
  | .harmonic fc2 => run s o (.harmonic fc2)
  | .cubic _ _ => none
  | .quartic fc2 f3x f4x => do
    let m ← runModes s o fc2
    let w := vecOf m.freq
    let f3x := rot3rd s.n3n s.natom s.axes f3x
    let f3qcm := force3 s.n3n f3x m.lx s.nvib w
    let f4x := rot4th s.n3n s.natom s.axes f4x
    let f4qcm ← force4 s.n3n f4x m.lx s.nvib w
    finishPolyad s o m.freq (f3Of f3qcm) (f4Of f4qcm) m.irreps m.lxm m.lx

end Verif
