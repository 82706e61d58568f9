import Mathlib.Data.Int.Log
import Verif.Model.Files
import Verif.Model.Run

/-!
# The text report (/repo/spectro/src/output.rs:53-142, state.rs:84-131, rot.rs:36-45, resonance.rs:28-36,
quartic.rs:165-186, sextic.rs:576-605, lib.rs:153-173, utils.rs:339-352)

A text with line feeds is the list of its lines. `val` is the exact value of a float.
-/

namespace Verif

variable {α ι : Type} [Arith α]

/-- Centred text in a field of `w` characters, the `^` of `{:^12}` at /repo/spectro/src/output.rs:109, 116, lib.rs:162,
169 and utils.rs:343: an odd blank goes to the right. -/
def padCenter (w : Nat) (s : Text) : Text :=
  List.replicate ((w - s.length) / 2) ' ' ++ s ++ List.replicate (w - s.length - (w - s.length) / 2) ' '

/-- The digits and the exponent printed for a positive number with `p` decimals, part of the `.12e` of `{:20.12e}` at
/repo/spectro/src/sextic.rs:579-601: the value is `digits / 10 ^ p * 10 ^ exponent`. Rounding is to the nearest, ties to
even; when it leads to one more digit the exponent grows. -/
def sciParts (p : Nat) (q : ℚ) : Nat × Int :=
  let e := Int.log 10 q
  let n := roundEven (q / (10 : ℚ) ^ e * 10 ^ p)
  if n = 10 ^ (p + 1) then (10 ^ p, e + 1) else (n, e)

/-- A float in scientific notation with `p` decimals, the `.12e` of `{:20.12e}` at /repo/spectro/src/sextic.rs:579-601.
Simplified: there is no negative zero, infinity or NaN. -/
def showSci (p : Nat) (q : ℚ) : Text :=
  let r := if q = 0 then (0, 0) else sciParts p |q|
  (if q < 0 then ['-'] else []) ++ showNat (r.1 / 10 ^ p) ++ '.' :: showDigits p (r.1 % 10 ^ p) ++ 'e' :: showInt r.2

/-- One pair of quanta of `State::I2st` as text, `({a},{b})`, /repo/spectro/src/state.rs:116-118. -/
def pairText (p : Nat × Nat) : Text := '(' :: showNat p.1 ++ ',' :: showNat p.2 ++ [')']

/-- `Display for State`, /repo/spectro/src/state.rs:108-131; the variant for triply degenerate modes is a `todo!`. -/
def showState : State → Option Text
  | .i1st v => some (v.flatMap fun s => padLeft 5 (showNat s))
  | .i2st v => some (v.flatMap pairText)
  | .i3st _ => none
  | .i12st v w => some ((v.zip w).flatMap fun x =>
      '(' :: showNat x.1 ++ ',' :: showNat x.2.1 ++ ',' :: showNat x.2.2 ++ [')'])

/-- `Display for Rot`, /repo/spectro/src/rot.rs:37-45. -/
def showRot (val : α → ℚ) (r : Rot α) : Option Text := do
  return (← showState r.state) ++ padLeft 12 (showFixed 7 (val r.a)) ++ padLeft 12 (showFixed 7 (val r.b)) ++
    padLeft 12 (showFixed 7 (val r.c))

/-- `Display for Axis`, /repo/spectro/src/resonance.rs:28-36; an axis is its number, and building an axis from a larger
number panics (46-55). -/
def showAxis : Nat → Option Text
  | 0 => some ['A']
  | 1 => some ['B']
  | 2 => some ['C']
  | _ => none

/-- A line with a label and a number, `"Delta  J: {:20.12}"` and the like, /repo/spectro/src/quartic.rs:169-183. -/
def fixedLine (label : String) (q : ℚ) : Text := label.toList ++ ':' :: ' ' :: padLeft 20 (showFixed 12 q)

/-- A line with a label and a number, `"Phi  J: {:20.12e}"` and the like, /repo/spectro/src/sextic.rs:579-601. -/
def sciLine (label : String) (q : ℚ) : Text := label.toList ++ ':' :: ' ' :: padLeft 20 (showSci 12 q)

/-- `Display for Quartic` outside of tests, /repo/spectro/src/quartic.rs:165-186. -/
def quarticLines (val : α → ℚ) (q : Quartic α) : List Text :=
  ["Watson A Reduction".toList, fixedLine "Delta  J" (val q.delj), fixedLine "Delta  K" (val q.delk), fixedLine "Delta JK" (val q.deljk),
    fixedLine "delta  J" (val q.sdelj), fixedLine "delta  k" (val q.sdelk),
    [], "Watson S Reduction".toList, fixedLine "D J " (val q.dj), fixedLine "D JK" (val q.djk), fixedLine "D K " (val q.dk),
    fixedLine "d 1 " (val q.sd1), fixedLine "d 2 " (val q.sd2),
    [], "Linear Molecules".toList, fixedLine "De  " (val q.de)]

/-- `Display for Sextic` outside of tests, /repo/spectro/src/sextic.rs:575-605. -/
def sexticLines (val : α → ℚ) (s : Sextic α) : List Text :=
  ["Watson A Reduction".toList, sciLine "Phi  J" (val s.phij), sciLine "Phi  K" (val s.phik), sciLine "Phi JK" (val s.phijk),
    sciLine "Phi KJ" (val s.phikj), sciLine "phi  J" (val s.sphij), sciLine "phi JK" (val s.sphijk), sciLine "phi  k" (val s.sphik),
    [], "Watson S Reduction".toList, sciLine "H  J" (val s.hj), sciLine "H  K" (val s.hk), sciLine "H JK" (val s.hjk), sciLine "H KJ" (val s.hkj),
    sciLine "h  1" (val s.h1), sciLine "h  2" (val s.h2), sciLine "h  3" (val s.h3),
    [], "Linear Molecule".toList, sciLine "He  " (val s.he)]

/-- A line of the frequency table, `{:5}{:>8}{:8.1}{:8.1}{:8.1}`, /repo/spectro/src/output.rs:90-98; `sym` is what the
`symm` crate prints for an irrep in a field of eight characters. -/
def freqLine (val : α → ℚ) (sym : ι → Text) (r : TableRow α ι) : Text :=
  padLeft 5 (showNat r.mode) ++ sym r.symm ++ padLeft 8 (showFixed 1 (val r.harm)) ++ padLeft 8 (showFixed 1 (val r.fund)) ++
    padLeft 8 (showFixed 1 (val r.corr))

/-- The title of the frequency table, /repo/spectro/src/output.rs:86-87. -/
def freqTitle : Text :=
  padLeft 5 "Mode".toList ++ padLeft 8 "Symm".toList ++ padLeft 8 "Harm".toList ++ padLeft 8 "Fund".toList ++
    padLeft 8 "Corr".toList

/-- The table of rotational constants, /repo/spectro/src/output.rs:104-121. -/
def rotLines (val : α → ℚ) (out : Output α ι) : Option (List Text) :=
  match out.rots with
  | [] => some []
  | r :: _ => do
    let len ← r.state.len
    if !out.linear then
      let rows ← out.rots.mapM (showRot val)
      return (padCenter (5 * len) "State".toList ++ padCenter 12 "A".toList ++ padCenter 12 "B".toList ++
        padCenter 12 "C".toList) :: rows
    else
      let rows ← out.rots.mapM fun rot => do
        return (← showState rot.state) ++ padLeft 12 (showFixed 7 (val (rot.b + out.rotEquil 1)))
      return (padCenter (5 * len) "State".toList ++ padCenter 12 "B".toList) :: rows

/-- A line of the list of Coriolis resonances, `{i:5}{j:5}{axis:>5}`, /repo/spectro/src/output.rs:127-129. -/
def coriolisLine (c : Coriolis) : Option Text := do
  return padLeft 5 (showNat c.i) ++ padLeft 5 (showNat c.j) ++ padLeft 5 (← showAxis c.axis)

/-- A line of the list of type 1 Fermi resonances, `{i:5}{j:5}`, /repo/spectro/src/output.rs:132-134. -/
def fermi1Line (f : Fermi1) : Text := padLeft 5 (showNat f.i) ++ padLeft 5 (showNat f.j)

/-- A line of the list of type 2 Fermi resonances, `{i:5}{j:5}{k:5}`, /repo/spectro/src/output.rs:137-139. -/
def fermi2Line (f : Fermi2) : Text := padLeft 5 (showNat f.i) ++ padLeft 5 (showNat f.j) ++ padLeft 5 (showNat f.k)

/-- A text of several lines written behind a label, `"Geometry: {:.8}"` at /repo/spectro/src/output.rs:83. -/
def behind (label : Text) : List Text → List Text
  | [] => [label]
  | l :: ls => (label ++ l) :: ls

/-- `Display for Output`, /repo/spectro/src/output.rs:53-142; `geom` are the lines of the geometry as printed by the
`symm` crate, `sym` is what it prints for an irrep in a field of eight characters. -/
def report (val : α → ℚ) (geom : List Text) (sym : ι → Text) (out : Output α ι) : Option (List Text) := do
  let table ← freqTable out
  let rots ← rotLines val out
  let cors ← out.resonances.coriolis.mapM coriolisLine
  return behind "Geometry: ".toList geom ++ ["Vibrational Frequencies (cm-1):".toList, freqTitle] ++
    table.map (freqLine val sym) ++
    [[], "ZPT = ".toList ++ padLeft 8 (showFixed 1 (val out.zpt)), [], "Rotational Constants (cm-1):".toList] ++ rots ++
    [[], "Quartic Distortion Constants (cm-1):".toList] ++ quarticLines val out.quartic ++
    [[], "Sextic Distortion Constants (cm-1):".toList] ++ sexticLines val out.sextic ++
    [[], [], "Coriolis Resonances:".toList] ++ cors ++
    [[], "Type 1 Fermi Resonances:".toList] ++ out.resonances.fermi1.map fermi1Line ++
    [[], "Type 2 Fermi Resonances:".toList] ++ out.resonances.fermi2.map fermi2Line

/-- `Spectro::write_output`, /repo/spectro/src/lib.rs:153-173; `geom` is the geometry of the input as printed by the
`symm` crate, `geom'` that of the result. -/
def writeOutput (val : α → ℚ) (rotcon : Vec α) (geom geom' : List Text) (sym : ι → Text) (out : Output α ι) :
    Option (List Text) := do
  let rep ← report val geom' sym out
  return [[], "Transformed Geometry (Å):".toList] ++ behind [] geom ++ [[], "Equilibrium Rotational Constants (cm-1):".toList] ++
    (if !out.linear then
      [padCenter 20 "A".toList ++ padCenter 20 "B".toList ++ padCenter 20 "C".toList,
        padLeft 20 (showFixed 12 (val (rotcon 0))) ++ padLeft 20 (showFixed 12 (val (rotcon 1))) ++
          padLeft 20 (showFixed 12 (val (rotcon 2))), []]
    else [padCenter 20 "B".toList, padLeft 20 (showFixed 12 (val (rotcon 1))), []]) ++ rep ++ [[]]

/-- A line of `print_vib_states`, /repo/spectro/src/utils.rs:346-351: number, energy, energy above the first state, a
fixed label and the state. -/
def vibLine (val : α → ℚ) (i : Nat) (energy zero : α) (s : State) : Option Text := do
  return padLeft 5 (showNat (i + 1)) ++ padLeft 20 (showFixed 4 (val energy)) ++ padLeft 20 (showFixed 4 (val (energy - zero))) ++
    padLeft 21 "NON-DEG (Vs) :".toList ++ (← showState s)

/-- `print_vib_states`, /repo/spectro/src/utils.rs:339-352; `reng[0]` is only read inside the loop. -/
def printVibStates (val : α → ℚ) (reng : List α) (states : List State) : Option (List Text) := do
  let rows ← ((reng.zip states).zipIdx).mapM fun x => do
    vibLine val x.2 x.1.1 (← reng[0]?) x.1.2
  return (padCenter 10 "STATE NO.".toList ++ padCenter 20 "ENERGY (CM-1)".toList ++ padCenter 20 "ABOVE ZPT".toList ++
    padLeft 21 "VIBRATIONAL STATE".toList) :: rows

end Verif
