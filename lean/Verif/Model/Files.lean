import Verif.Model.Input
import Verif.Model.Load

/-!
# Force-constant files and listings (/repo/spectro/src/utils.rs:147-158, f3qcm.rs:40-49, f4qcm.rs:53-62,
run.rs:61-170, 345-354)
-/

namespace Verif

variable {α : Type} [Arith α]

/-- `u8::is_ascii_whitespace`, used by `split_ascii_whitespace` at /repo/spectro/src/utils.rs:155: tab, line feed, form
feed, carriage return and blank, but not vertical tab. -/
def isAsciiWs (c : Char) : Bool :=
  c.toNat == 9 || c.toNat == 10 || c.toNat == 12 || c.toNat == 13 || c.toNat == 32

/-- `split_ascii_whitespace`, /repo/spectro/src/utils.rs:155; the last two arguments of `splitAsciiGo` are the field
being read, reversed, and the rest of the text. -/
def splitAsciiGo : Text → Text → List Text
  | w, [] => if w.isEmpty then [] else [w.reverse]
  | w, c :: cs =>
    if isAsciiWs c then
      if w.isEmpty then splitAsciiGo [] cs else w.reverse :: splitAsciiGo [] cs
    else splitAsciiGo (c :: w) cs

/-- `split_ascii_whitespace`, /repo/spectro/src/utils.rs:155. -/
def splitAscii (data : Text) : List Text := splitAsciiGo [] data

/-- `load_vec`, /repo/spectro/src/utils.rs:147-158, from the text of the file on: a field that is not a number panics.
Not modelled: reading the file. -/
def loadVec (data : Text) : Option (List ℚ) := (splitAscii data).mapM parseF64

/-- The numbers of a harmonic force-constant file, /repo/spectro/src/load.rs:384-388, from the text of the file on:
here the split is at any Unicode white space. -/
def loadVec2 (data : Text) : Option (List ℚ) := (splitWs data).mapM parseF64

/-- `load_fc2`, /repo/spectro/src/load.rs:380-400, from the text of the file on. -/
def loadFc2Text (data : Text) (n3n : Nat) : Option (DMat α) := do
  loadFc2 n3n ((← loadVec2 data).map Arith.lit)

/-- `load_fc3`, /repo/spectro/src/load.rs:403-409, from the text of the file on. -/
def loadFc3Text (data : Text) (n3n : Nat) : Option (T3 α) := do
  newFc3 n3n ((← loadVec data).map Arith.lit)

/-- `load_fc4`, /repo/spectro/src/load.rs:445-451, from the text of the file on. -/
def loadFc4Text (data : Text) (n3n : Nat) : Option (T4 α) := do
  newFc4 n3n ((← loadVec data).map Arith.lit)

/-- The three force-constant tensors handed to `run` by `run_files`, /repo/spectro/src/run.rs:345-354, from the texts of
the files on. -/
def runFiles (fort15 fort30 fort40 : Text) (n3n : Nat) : Option (DMat α × T3 α × T4 α) := do
  let fc2 ← loadFc2Text fort15 n3n
  let f3x ← loadFc3Text fort30 n3n
  let f4x ← loadFc4Text fort40 n3n
  return (fc2, f3x, f4x)

/-- A float with `p` decimals as text, the `.prec$` of /repo/spectro/src/f3qcm.rs:45 and f4qcm.rs:58: without decimals
there is no point. -/
def showPrec (p : Nat) (q : ℚ) : Text :=
  if p = 0 then (if q < 0 then ['-'] else []) ++ showNat (roundEven |q|) else showFixed p q

/-- `Display for F3qcm` and `Display for F4qcm`, /repo/spectro/src/f3qcm.rs:40-49 and f4qcm.rs:53-62; `width` and `prec`
are the width and precision asked for, if any. -/
def displayPacked (width prec : Option Nat) (l : List ℚ) : Text :=
  l.flatMap fun v => padLeft (width.getD 16) (showPrec (prec.getD 8) v) ++ ['\n']

/-- A row of a listing of force constants: the numbers in front and the value, /repo/spectro/src/run.rs:73-79, 92-99 and
116-165. -/
structure FcRow (α : Type) where
  nums : List Nat
  val : α

/-- The cubic part of `to_gauss`, /repo/spectro/src/run.rs:67-83; a table that is too short panics. -/
def gaussCubic (r : Nat) (f3qcm : F3qcm α) : Option (List (FcRow α)) :=
  (nest3 r).foldlM (fun rows x => do
    let v ← f3qcm.get x.1 x.2.1 x.2.2
    return if Arith.lt (Arith.lit (1 / 10 ^ 6)) (Arith.abs v) then rows ++ [⟨[x.1 + 1, x.2.1 + 1, x.2.2 + 1], v⟩]
      else rows) []

/-- The quartic part of `to_gauss`, /repo/spectro/src/run.rs:85-104. -/
def gaussQuartic (r : Nat) (f4qcm : F4qcm α) : Option (List (FcRow α)) :=
  (nest4 r).foldlM (fun rows x => do
    let v ← f4qcm.get x.1 x.2.1 x.2.2.1 x.2.2.2
    return if Arith.lt (Arith.lit (1 / 10 ^ 6)) (Arith.abs v) then
        rows ++ [⟨[x.1 + 1, x.2.1 + 1, x.2.2.1 + 1, x.2.2.2 + 1], v⟩]
      else rows) []

/-- `to_gauss`, /repo/spectro/src/run.rs:61-105: the rows after the cubic and after the quartic title; `r` is
`freq.len()`. What was printed before a panic is not kept. -/
def toGauss (r : Nat) (f3qcm : F3qcm α) (f4qcm : F4qcm α) : Option (List (FcRow α) × List (FcRow α)) := do
  let c ← gaussCubic r f3qcm
  let q ← gaussQuartic r f4qcm
  return (c, q)

/-- The text of a row, `{:5}{:5}{:5}{:20.12}` and its longer forms, /repo/spectro/src/run.rs:73-79, 92-99, 116-123,
131-138, 147 and 158-165. -/
def FcRow.text (row : FcRow ℚ) : Text := row.nums.flatMap (fun n => padLeft 5 (showNat n)) ++ padLeft 20 (showFixed 12 row.val)

/-- The lines printed by `to_gauss`, /repo/spectro/src/run.rs:61-105. -/
def gaussLines (g : List (FcRow ℚ) × List (FcRow ℚ)) : List Text :=
  ["CUBIC FORCE CONSTANTS IN NORMAL MODES".toList] ++ g.1.map FcRow.text ++
    ["QUARTIC FORCE CONSTANTS IN NORMAL MODES".toList] ++ g.2.map FcRow.text

/-- The Hessian rows of `dump_fcs`, /repo/spectro/src/run.rs:111-125; a matrix is its shape and its entries, and reading
outside the shape cannot happen here. -/
def dumpHessian (r2 : Nat) (fc2 : Mat α) : List (FcRow α) :=
  (List.range r2).flatMap fun i => (List.range (i + 1)).map fun j => ⟨[i + 1, j + 1, 0, 0], fc2 i j⟩

/-- The normal-coordinate rows of `dump_fcs`, /repo/spectro/src/run.rs:128-140. -/
def dumpNormal (a b : Nat) (lxm : Mat α) : List (FcRow α) :=
  (List.range a).flatMap fun i => (List.range b).map fun j => ⟨[i + 1, j + 1, 0, 0], lxm i j⟩

/-- The cubic rows of `dump_fcs`, /repo/spectro/src/run.rs:143-150. -/
def dumpCubic (r : Nat) (f3qcm : F3qcm α) : Option (List (FcRow α)) :=
  (nest3 r).mapM fun x => do
    return ⟨[x.1 + 1, x.2.1 + 1, x.2.2 + 1, 0], ← f3qcm.get x.1 x.2.1 x.2.2⟩

/-- The quartic rows of `dump_fcs`, /repo/spectro/src/run.rs:153-169. -/
def dumpQuartic (r : Nat) (f4qcm : F4qcm α) : Option (List (FcRow α)) :=
  (nest4 r).mapM fun x => do
    return ⟨[x.1 + 1, x.2.1 + 1, x.2.2.1 + 1, x.2.2.2 + 1], ← f4qcm.get x.1 x.2.1 x.2.2.1 x.2.2.2⟩

/-- The four parts of the listing of `dump_fcs`, /repo/spectro/src/run.rs:109-170. -/
structure FcDump (α : Type) where
  hessian : List (FcRow α)
  normal : List (FcRow α)
  cubic : List (FcRow α)
  quartic : List (FcRow α)

/-- `dump_fcs`, /repo/spectro/src/run.rs:109-170; `(r2, c2)` and `(a, b)` are the shapes of the matrices. -/
def dumpFcs (r r2 c2 : Nat) (fc2 : Mat α) (a b : Nat) (lxm : Mat α) (f3qcm : F3qcm α) (f4qcm : F4qcm α) :
    Option (FcDump α) := do
  if r2 ≠ c2 then none
  else if ¬ r < r2 then none
  else
    let cubic ← dumpCubic r f3qcm
    let quartic ← dumpQuartic r f4qcm
    return ⟨dumpHessian r2 fc2, dumpNormal a b lxm, cubic, quartic⟩

/-- The lines printed by `dump_fcs`, /repo/spectro/src/run.rs:109-170; a title that starts with a line feed is a blank
line and a title. -/
def dumpLines (d : FcDump ℚ) : List Text :=
  ["Cartesian Hessian (mdyne/Å)".toList] ++ d.hessian.map FcRow.text ++
    [[], "Normal coordinates".toList] ++ d.normal.map FcRow.text ++
    [[], "Normal coordinate cubic force constants (mdyne/Å²)".toList] ++ d.cubic.map FcRow.text ++
    [[], "Normal coordinate quartic force constants (mdyne/Å³)".toList] ++ d.quartic.map FcRow.text

end Verif
