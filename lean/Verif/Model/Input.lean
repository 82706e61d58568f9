import Mathlib.Data.Rat.Floor

/-!
# Reading and writing input files (/repo/spectro/src/load.rs:249-378, utils.rs:31-96, dummy.rs)

Text is a list of characters and a file is a list of lines. `f64` values are modelled as rational numbers: a numeral
reads as the number it denotes, without rounding to the nearest double, and `inf` and `nan` are not read.
-/

namespace Verif

/-- A piece of text, `&str`/`String` at /repo/spectro/src/load.rs:274. -/
abbrev Text := List Char

/-- `char::is_whitespace`, used by `split_whitespace` at /repo/spectro/src/load.rs:294, 301, 339 and utils.rs:90:
the characters with the Unicode property White_Space. -/
def isWs (c : Char) : Bool :=
  let n := c.toNat
  (9 ≤ n && n ≤ 13) || n == 32 || n == 0x85 || n == 0xA0 || n == 0x1680 || (0x2000 ≤ n && n ≤ 0x200A) ||
    n == 0x2028 || n == 0x2029 || n == 0x202F || n == 0x205F || n == 0x3000

/-- Part of `split_whitespace`: a character that is not white space before the rest of the text, which starts with
`next` and has the fields given. Used at /repo/spectro/src/load.rs:294, 301, 339 and utils.rs:90. -/
def consField (c : Char) (next : Option Char) (fields : List Text) : List Text :=
  match next, fields with
  | some d, w :: ws => if isWs d then [c] :: w :: ws else (c :: w) :: ws
  | _, ws => [c] :: ws

/-- `split_whitespace`, used at /repo/spectro/src/load.rs:294, 301, 339 and utils.rs:90. -/
def splitWs : Text → List Text
  | [] => []
  | c :: cs => if isWs c then splitWs cs else consField c cs.head? (splitWs cs)

/-- `str::contains`, used at /repo/spectro/src/load.rs:277-289. -/
def contains : Text → Text → Bool
  | [], key => key.isEmpty
  | c :: cs, key => key.isPrefixOf (c :: cs) || contains cs key

/-- The value of a decimal digit, part of the number parsers called at /repo/spectro/src/load.rs:295, 303, 314, 330-332,
341, 342 and utils.rs:92. -/
def digitVal (c : Char) : Option Nat :=
  if '0'.toNat ≤ c.toNat ∧ c.toNat ≤ '9'.toNat then some (c.toNat - '0'.toNat) else none

/-- The value of a possibly empty string of digits, part of the number parsers called at
/repo/spectro/src/load.rs:295, 303, 314, 330-332, 341, 342 and utils.rs:92. -/
def digitsVal (s : Text) : Option Nat :=
  s.foldlM (fun n c => do return 10 * n + (← digitVal c)) 0

/-- The value of a non-empty string of digits, part of the number parsers called at
/repo/spectro/src/load.rs:295, 341 and utils.rs:92. -/
def parseNat (s : Text) : Option Nat := if s.isEmpty then none else digitsVal s

/-- `parse::<usize>` for 64 bits, called at /repo/spectro/src/load.rs:341 and utils.rs:92. -/
def parseUsize (s : Text) : Option Nat := do
  let n ← parseNat (if s.head? = some '+' then s.tail else s)
  if n < 2 ^ 64 then some n else none

/-- `parse::<isize>` for 64 bits, called at /repo/spectro/src/load.rs:295. -/
def parseIsize (s : Text) : Option Int :=
  if s.head? = some '-' then do
    let n ← parseNat s.tail
    if n ≤ 2 ^ 63 then some (-n) else none
  else do
    let n ← parseNat (if s.head? = some '+' then s.tail else s)
    if n < 2 ^ 63 then some n else none

/-- An integer with an optional sign, part of `parse::<f64>` called at
/repo/spectro/src/load.rs:303, 314, 330-332, 342. -/
def parseSigned (s : Text) : Option Int :=
  if s.head? = some '-' then (parseNat s.tail).map fun (n : Nat) => -(n : Int)
  else (parseNat (if s.head? = some '+' then s.tail else s)).map fun (n : Nat) => (n : Int)

/-- The exponent of a floating-point numeral with the letter before it, part of `parse::<f64>` called at
/repo/spectro/src/load.rs:303, 314, 330-332, 342. -/
def parseExp : Text → Option Int
  | [] => some 0
  | _ :: u => parseSigned u

/-- A floating-point numeral without sign, part of `parse::<f64>` called at
/repo/spectro/src/load.rs:303, 314, 330-332, 342: digits with at most one point and at least one digit, then an
optional exponent. -/
def parseUnsigned (s : Text) : Option ℚ := do
  let mant := s.takeWhile fun c => c ≠ 'e' ∧ c ≠ 'E'
  let ex := s.dropWhile fun c => c ≠ 'e' ∧ c ≠ 'E'
  let ip := mant.takeWhile (· ≠ '.')
  let fp := (mant.dropWhile (· ≠ '.')).tail
  let m ← parseNat (ip ++ fp)
  let e ← parseExp ex
  return (m : ℚ) / 10 ^ fp.length * (10 : ℚ) ^ e

/-- `parse::<f64>`, called at /repo/spectro/src/load.rs:303, 314, 330-332, 342. Simplified: exact value, and the
numerals for infinity and NaN are rejected. -/
def parseF64 (s : Text) : Option ℚ :=
  if s.head? = some '-' then (parseUnsigned s.tail).map (- ·)
  else parseUnsigned (if s.head? = some '+' then s.tail else s)

/-- The conversion `as usize` of a float at /repo/spectro/src/load.rs:303: towards zero and saturating. -/
def asUsize (q : ℚ) : Nat := min ⌊q⌋.toNat (2 ^ 64 - 1)

/-- `symm::Atom` as built at /repo/spectro/src/load.rs:328-334. -/
structure InAtom where
  num : Nat
  x : ℚ
  y : ℚ
  z : ℚ
  weight : Option ℚ
deriving DecidableEq

/-- `DummyVal`, /repo/spectro/src/dummy.rs:7-10. -/
inductive DummyVal where
  | value (v : ℚ)
  | atom (i : Nat)
deriving DecidableEq

/-- `Dummy`, /repo/spectro/src/dummy.rs:13-17. -/
structure Dummy where
  x : DummyVal
  y : DummyVal
  z : DummyVal
deriving DecidableEq

/-- `Dummy::get_vals`, /repo/spectro/src/dummy.rs:20-35; an atom number outside the molecule panics. -/
def Dummy.getVals (d : Dummy) (atoms : List InAtom) : Option (ℚ × ℚ × ℚ) := do
  let x ← match d.x with | .value v => some v | .atom i => (atoms[i]?).map (·.x)
  let y ← match d.y with | .value v => some v | .atom i => (atoms[i]?).map (·.y)
  let z ← match d.z with | .value v => some v | .atom i => (atoms[i]?).map (·.z)
  return (x, y, z)

/-- `From<Vec<DummyVal>> for Dummy`, /repo/spectro/src/dummy.rs:38-47; the assertion that there are three values is
`none` when it fails. -/
def Dummy.ofVals : List DummyVal → Option Dummy
  | [x, y, z] => some ⟨x, y, z⟩
  | _ => none

/-- `Curvil`, /repo/spectro/src/lib.rs:63-69. -/
inductive Curvil where
  | bond (i j : Nat)
  | bend (i j k : Nat)
  | tors (i j k l : Nat)
deriving DecidableEq

/-- The fields of `Spectro` that an input file holds, /repo/spectro/src/lib.rs:112-118. -/
structure Input where
  header : List Int
  atoms : List InAtom
  weights : List (Nat × ℚ)
  curvils : List Curvil
  degmodes : List (List Nat)
  dummies : List Dummy
deriving DecidableEq

/-- `Spectro::default()` at /repo/spectro/src/load.rs:273, the fields kept here. -/
def Input.empty : Input := ⟨[], [], [], [], [], []⟩

/-- The local enum `State` of `read`, /repo/spectro/src/load.rs:261-268. -/
inductive ReadMode where
  | header
  | geom
  | weight
  | curvil
  | degmode
  | none
deriving DecidableEq

/-- The local variables of `read`, /repo/spectro/src/load.rs:270-273. The hash map is the list of its insertions, the
last one first. -/
structure Reader where
  coordMap : List (Text × Nat)
  mode : ReadMode
  skip : Nat
  ret : Input

/-- `coord_map.get`, /repo/spectro/src/load.rs:311: the last value inserted for the key. -/
def coordGet (m : List (Text × Nat)) (key : Text) : Option Nat := (m.find? (·.1 == key)).map (·.2)

/-- `parse_line`, /repo/spectro/src/utils.rs:86-96, for numbers of type `usize`. -/
def parseLine (line : Text) : Option (List Nat) := (splitWs line).mapM parseUsize

/-- A line of the header, /repo/spectro/src/load.rs:293-299. -/
def headerLine (header : List Int) (line : Text) : Option (List Int) := do
  return header ++ (← (splitWs line).mapM parseIsize)

/-- A line of the geometry, /repo/spectro/src/load.rs:300-337; the state is the map of coordinates, the atoms and the
dummy atoms. -/
def geomLine (g : List (Text × Nat) × List InAtom × List Dummy) (line : Text) :
    Option (List (Text × Nat) × List InAtom × List Dummy) :=
  match splitWs line with
  | [] => none
  | first :: fields => do
    let num := asUsize (← parseF64 first)
    if num = 0 then
      let vals ← fields.mapM fun coord => match coordGet g.1 coord with
        | some idx => some (DummyVal.atom idx)
        | none => (parseF64 coord).map DummyVal.value
      let d ← Dummy.ofVals vals
      return (g.1, g.2.1, g.2.2 ++ [d])
    else
      let idx := g.2.1.length
      let m := fields.foldl (fun m coord => (coord, idx) :: m) g.1
      let x ← parseF64 (← fields[0]?)
      let y ← parseF64 (← fields[1]?)
      let z ← parseF64 (← fields[2]?)
      return (m, g.2.1 ++ [⟨num, x, y, z, none⟩], g.2.2)

/-- A line of the weights, /repo/spectro/src/load.rs:338-344. -/
def weightLine (weights : List (Nat × ℚ)) (line : Text) : Option (List (Nat × ℚ)) := do
  let fields := splitWs line
  let i ← parseUsize (← fields[0]?)
  let w ← parseF64 (← fields[1]?)
  return weights ++ [(i, w)]

/-- A line of the curvilinear coordinates, /repo/spectro/src/load.rs:345-359. -/
def curvilLine (curvils : List Curvil) (line : Text) : Option (List Curvil) := do
  match ← parseLine line with
  | [i, j] => return curvils ++ [.bond i j]
  | [i, j, k] => return curvils ++ [.bend i j k]
  | [i, j, k, l] => return curvils ++ [.tors i j k l]
  | [] => return curvils
  | _ => none

/-- A line of the degenerate modes, /repo/spectro/src/load.rs:360-365. -/
def degmodeLine (degmodes : List (List Nat)) (line : Text) : Option (List (List Nat)) := do
  let v ← parseLine line
  return if v.isEmpty then degmodes else degmodes ++ [v]

/-- The `match state` of `read`, /repo/spectro/src/load.rs:292-367. -/
def dataLine (r : Reader) (line : Text) : Option Reader :=
  match r.mode with
  | .header => do return { r with ret := { r.ret with header := ← headerLine r.ret.header line } }
  | .geom => do
    let g ← geomLine (r.coordMap, r.ret.atoms, r.ret.dummies) line
    return { r with coordMap := g.1, ret := { r.ret with atoms := g.2.1, dummies := g.2.2 } }
  | .weight => do return { r with ret := { r.ret with weights := ← weightLine r.ret.weights line } }
  | .curvil => do return { r with ret := { r.ret with curvils := ← curvilLine r.ret.curvils line } }
  | .degmode => do return { r with ret := { r.ret with degmodes := ← degmodeLine r.ret.degmodes line } }
  | .none => some r

/-- The body of the loop over lines of `read`, /repo/spectro/src/load.rs:274-369. -/
def readLine (r : Reader) (line : Text) : Option Reader :=
  if r.skip > 0 then some { r with skip := r.skip - 1 }
  else if contains line "SPECTRO".toList then some { r with mode := .header }
  else if contains line "GEOM".toList then some { r with skip := 1, mode := .geom }
  else if contains line "WEIGHT".toList then some { r with skip := 1, mode := .weight }
  else if contains line "CURVIL".toList then some { r with mode := .curvil }
  else if contains line "DEGMODE".toList then some { r with mode := .degmode }
  else if contains line "CORIOL".toList then some { r with mode := .none }
  else dataLine r line

/-- The assignment of one isotope weight, /repo/spectro/src/load.rs:373. -/
def setWeight (atoms : List InAtom) (p : Nat × ℚ) : Option (List InAtom) :=
  if p.1 = 0 then none
  else (atoms[p.1 - 1]?).map fun a => atoms.set (p.1 - 1) { a with weight := some p.2 }

/-- The end of `read`, /repo/spectro/src/load.rs:371-377. -/
def finishRead (ret : Input) : Option Input := do
  if (← ret.header[1]?) = -1 then
    return { ret with atoms := ← ret.weights.foldlM setWeight ret.atoms }
  else
    return ret

/-- `read`, /repo/spectro/src/load.rs:249-378, from the lines of the file on. Not modelled: opening the file, and the
end of the loop at the first line that is not valid UTF-8. -/
def readInput (lines : List Text) : Option Input := do
  let r ← lines.foldlM readLine ⟨[], .none, 0, Input.empty⟩
  finishRead r.ret

/-- A decimal digit as a character, part of the formatting of numbers at /repo/spectro/src/utils.rs:37-76. -/
def digitChar (n : Nat) : Char := Char.ofNat ('0'.toNat + n)

/-- The last `k` decimal digits of a number, part of the formatting of numbers at
/repo/spectro/src/utils.rs:46-61. -/
def showDigits : Nat → Nat → Text
  | 0, _ => []
  | k + 1, n => showDigits k (n / 10) ++ [digitChar (n % 10)]

/-- The decimal digits of a number without leading zeros; the first argument bounds the number of digits. Part of the
formatting of numbers at /repo/spectro/src/utils.rs:37-76. -/
def showNatGo : Nat → Nat → Text
  | 0, _ => []
  | k + 1, n => if n < 10 then [digitChar n] else showNatGo k (n / 10) ++ [digitChar (n % 10)]

/-- An unsigned integer as text, formatting at /repo/spectro/src/utils.rs:37-76. -/
def showNat (n : Nat) : Text := showNatGo (n + 1) n

/-- A signed integer as text, formatting at /repo/spectro/src/utils.rs:37. -/
def showInt (n : Int) : Text := if n < 0 then '-' :: showNat n.natAbs else showNat n.natAbs

/-- Right alignment in a field of `w` characters, the `5` of `{:5}`, /repo/spectro/src/utils.rs:37-76. -/
def padLeft (w : Nat) (s : Text) : Text := List.replicate (w - s.length) ' ' ++ s

/-- Rounding of a non-negative number to the nearest integer, ties to even, as done by `{:.8}` at
/repo/spectro/src/utils.rs:46. -/
def roundEven (q : ℚ) : Nat :=
  let f := ⌊q⌋.toNat
  if q - f < 1 / 2 then f
  else if 1 / 2 < q - f then f + 1
  else if f % 2 = 0 then f else f + 1

/-- A float with `p` decimals as text, the `.8` of `{:16.8}` at /repo/spectro/src/utils.rs:46. Simplified: there is no
negative zero, infinity or NaN. -/
def showFixed (p : Nat) (q : ℚ) : Text :=
  let m := roundEven (|q| * 10 ^ p)
  (if q < 0 then ['-'] else []) ++ showNat (m / 10 ^ p) ++ '.' :: showDigits p (m % 10 ^ p)

/-- `header.chunks(15)`, /repo/spectro/src/utils.rs:35; the first argument bounds the number of chunks. -/
def chunks15 : Nat → List Int → List (List Int)
  | 0, _ => []
  | k + 1, l => if l.isEmpty then [] else l.take 15 :: chunks15 k (l.drop 15)

/-- A line of the geometry as written, /repo/spectro/src/utils.rs:44-48 and 52-56. -/
def atomLine (num x y z : ℚ) : Text :=
  padLeft 5 (showFixed 2 num) ++ padLeft 16 (showFixed 8 x) ++ padLeft 16 (showFixed 8 y) ++ padLeft 16 (showFixed 8 z)

/-- A line of integers in fields of five characters, /repo/spectro/src/utils.rs:36-39, 65-70 and 75-78. -/
def intsLine (l : List Text) : Text := l.flatMap (padLeft 5)

/-- The numbers of a curvilinear coordinate in the order written, /repo/spectro/src/utils.rs:66-68. -/
def Curvil.nums : Curvil → List Nat
  | .bond i j => [i, j]
  | .bend i j k => [i, j, k]
  | .tors i j k l => [i, j, k, l]

/-- `Display for Spectro`, /repo/spectro/src/utils.rs:31-83, as the list of lines written; a dummy atom referring to a
missing atom panics. -/
def displayInput (s : Input) : Option (List Text) := do
  let dummies ← s.dummies.mapM fun d => do
    let v ← d.getVals s.atoms
    return atomLine 0 v.1 v.2.1 v.2.2
  return ["# SPECTRO #############".toList] ++
    (chunks15 (s.header.length + 1) s.header).map (fun c => intsLine (c.map showInt)) ++
    ["# GEOM #############".toList, intsLine [showNat (s.atoms.length + s.dummies.length), showNat 0]] ++
    s.atoms.map (fun a => atomLine a.num a.x a.y a.z) ++
    dummies ++
    ["# WEIGHT #############".toList, padLeft 5 (showNat s.weights.length)] ++
    s.weights.map (fun w => padLeft 5 (showNat w.1) ++ padLeft 12 (showFixed 6 w.2)) ++
    ["# CURVIL #############".toList] ++
    s.curvils.map (fun c => intsLine (c.nums.map showNat)) ++
    if s.degmodes.isEmpty then []
    else "# DEGMODE #############".toList :: s.degmodes.map fun d => intsLine (d.map showNat)

/-- `Spectro::write`, /repo/spectro/src/lib.rs:732-737: the text followed by one more line end. Not modelled: creating
the file. -/
def writeInput (s : Input) : Option (List Text) := do
  return (← displayInput s) ++ [[]]

end Verif
