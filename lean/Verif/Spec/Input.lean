import Mathlib.Data.Rat.Defs
import Mathlib.Data.Nat.Digits.Defs
import Mathlib.Data.List.Infix
import Verif.Model.Input

/-!
# Input files: what they mean

Only the data types of the model (`Text`, `InAtom`, `Curvil`, `Dummy.getVals`, ..) are used here.
-/

namespace Verif

/-- The code points of the Unicode white-space characters. -/
def whites : List Nat :=
  [9, 10, 11, 12, 13, 32, 0x85, 0xA0, 0x1680, 0x2000, 0x2001, 0x2002, 0x2003, 0x2004, 0x2005, 0x2006, 0x2007, 0x2008,
    0x2009, 0x200A, 0x2028, 0x2029, 0x202F, 0x205F, 0x3000]

/-- The fields of a line: the non-empty pieces between white space. -/
def fieldsOf (line : Text) : List Text :=
  (line.splitOnP fun c => whites.contains c.toNat).filter fun w => !w.isEmpty

/-- `ds` are decimal digits and `t` is how they are written. -/
def Digits (t : Text) (ds : List Nat) : Prop := (∀ d ∈ ds, d < 10) ∧ t = ds.map Nat.digitChar

/-- `t` is a decimal numeral for `n`. -/
def Numeral (t : Text) (n : Nat) : Prop := ∃ ds, ds ≠ [] ∧ Digits t ds ∧ n = Nat.ofDigits 10 ds.reverse

/-- `t` is an unsigned 64-bit integer `n`, possibly with a plus sign. -/
def NatField (t : Text) (n : Nat) : Prop := (Numeral t n ∨ ∃ u, t = '+' :: u ∧ Numeral u n) ∧ n < 2 ^ 64

/-- `t` is an integer `n`, possibly with a sign. -/
def IntNumeral (t : Text) (n : Int) : Prop :=
  ∃ k : Nat, Numeral t k ∧ n = k ∨ ∃ u, Numeral u k ∧ (t = '+' :: u ∧ n = k ∨ t = '-' :: u ∧ n = -k)

/-- `t` is a signed 64-bit integer `n`. -/
def IntField (t : Text) (n : Int) : Prop := IntNumeral t n ∧ -2 ^ 63 ≤ n ∧ n < 2 ^ 63

/-- `t` is the decimal fraction `q` without sign: digits with at most one point among them, and an optional
exponent. -/
def Fraction (t : Text) (q : ℚ) : Prop :=
  ∃ (ip fp ex : Text) (is fs : List Nat) (e : Int), Digits ip is ∧ Digits fp fs ∧ is ++ fs ≠ [] ∧
    (ex = [] ∧ e = 0 ∨ ∃ c u, ex = c :: u ∧ (c = 'e' ∨ c = 'E') ∧ IntNumeral u e) ∧
    (t = ip ++ fp ++ ex ∧ fs = [] ∨ t = ip ++ '.' :: fp ++ ex) ∧
    q = ((Nat.ofDigits 10 (is ++ fs).reverse : ℕ) : ℚ) / 10 ^ fs.length * (10 : ℚ) ^ e

/-- `t` is the decimal fraction `q`, possibly with a sign. -/
def RealField (t : Text) (q : ℚ) : Prop :=
  Fraction t q ∨ ∃ u r, Fraction u r ∧ (t = '+' :: u ∧ q = r ∨ t = '-' :: u ∧ q = -r)

/-- The sections of an input file; `ignored` is the one of the CORIOL keyword. -/
inductive Section where
  | header
  | geom
  | weight
  | curvil
  | degmode
  | ignored
deriving DecidableEq

/-- The keyword of a section. -/
def Section.key : Section → Text
  | .header => "SPECTRO".toList
  | .geom => "GEOM".toList
  | .weight => "WEIGHT".toList
  | .curvil => "CURVIL".toList
  | .degmode => "DEGMODE".toList
  | .ignored => "CORIOL".toList

/-- The precedence of the keywords on a line with several of them. -/
def Section.rank : Section → Nat
  | .header => 0
  | .geom => 1
  | .weight => 2
  | .curvil => 3
  | .degmode => 4
  | .ignored => 5

/-- A line that opens a section. -/
def Title (s : Section) (line : Text) : Prop := s.key <:+: line ∧ ∀ t : Section, t.rank < s.rank → ¬ t.key <:+: line

/-- A line that contains none of the keywords. -/
def Plain (line : Text) : Prop := ∀ s : Section, ¬ s.key <:+: line

/-- A section of a file: its title line, the line with the count where there is one, and its content. -/
structure Block where
  sec : Section
  title : Text
  count : List Text
  data : List Text

/-- The lines of a section. -/
def Block.lines (b : Block) : List Text := b.title :: (b.count ++ b.data)

/-- A section is well formed. -/
def Block.Ok (b : Block) : Prop :=
  Title b.sec b.title ∧ b.count.length = (if b.sec = .geom ∨ b.sec = .weight then 1 else 0) ∧ ∀ l ∈ b.data, Plain l

/-- The content of all sections of one kind, in the order of the file. -/
def content (bs : List Block) (s : Section) : List Text := (bs.filter fun b => decide (b.sec = s)).flatMap (·.data)

/-- A line of the geometry that holds the atom `a`. -/
def AtomRow (line : Text) (a : InAtom) : Prop :=
  ∃ f x y z rest q, fieldsOf line = f :: x :: y :: z :: rest ∧ RealField f q ∧ 1 ≤ q ∧
    a.num = min ⌊q⌋.toNat (2 ^ 64 - 1) ∧ RealField x a.x ∧ RealField y a.y ∧ RealField z a.z

/-- A line of the geometry that holds a dummy atom: its number is less than one, and three coordinates follow, written
as `x`, `y` and `z`. -/
def DummyRow (line : Text) (x y z : Text) : Prop :=
  ∃ f q, fieldsOf line = [f, x, y, z] ∧ RealField f q ∧ q < 1

/-- A line of the geometry that holds an atom. -/
def AtomLine (line : Text) : Prop := ∃ a, AtomRow line a

open Classical in
/-- The lines that hold atoms. -/
noncomputable def atomLines (lines : List Text) : List Text := lines.filter fun l => decide (AtomLine l)

open Classical in
/-- The lines that do not hold atoms. -/
noncomputable def dummyLines (lines : List Text) : List Text := lines.filter fun l => decide (¬ AtomLine l)

/-- Number `i` is the last atom on whose line the text `t` appears after the atomic number. -/
def LastShows (lines : List Text) (t : Text) (i : Nat) : Prop :=
  ∃ l, (atomLines lines)[i]? = some l ∧ t ∈ (fieldsOf l).tail ∧
    ∀ j l', i < j → (atomLines lines)[j]? = some l' → t ∉ (fieldsOf l').tail

/-- A line of the weights. -/
def WeightRow (line : Text) (p : Nat × ℚ) : Prop :=
  ∃ a b rest, fieldsOf line = a :: b :: rest ∧ NatField a p.1 ∧ RealField b p.2

/-- A line of integers. -/
def NatRow (line : Text) (l : List Nat) : Prop := List.Forall₂ NatField (fieldsOf line) l

/-- A line with a curvilinear coordinate. -/
def CurvilRow (line : Text) : Curvil → Prop
  | .bond i j => NatRow line [i, j]
  | .bend i j k => NatRow line [i, j, k]
  | .tors i j k l => NatRow line [i, j, k, l]

/-- The lines that are not blank. -/
def nonBlank (lines : List Text) : List Text := lines.filter fun l => !(fieldsOf l).isEmpty

/-- A file made of lines before the first title, whole sections, and perhaps a last title without its count line. -/
def FileOf (lines pre : List Text) (bs : List Block) (cut : List Text) : Prop :=
  lines = pre ++ bs.flatMap Block.lines ++ cut ∧ (∀ l ∈ pre, Plain l) ∧ (∀ b ∈ bs, b.Ok) ∧
    (cut = [] ∨ ∃ t s, cut = [t] ∧ (s = Section.geom ∨ s = Section.weight) ∧ Title s t)

/-- `x'` is `x` rounded to `p` decimals. -/
def Printed (p : Nat) (x x' : ℚ) : Prop := (∃ k : ℤ, x' = k / 10 ^ p) ∧ |x' - x| ≤ 1 / 2 / 10 ^ p

/-- The last weight listed for atom number `n`. -/
def listedWeight (ws : List (Nat × ℚ)) (n : Nat) : Option ℚ :=
  ((ws.filter fun p => p.1 = n).getLast?).map (·.2)

/-- An input whose numbers fit into the fields of the file format: integers in at most four characters, coordinates
and weights one character less than the width of their fields, real atoms, no empty list of degenerate modes, and no
dummy atom with a coordinate of a missing atom. -/
structure Fits (s : Input) : Prop where
  header : ∀ n ∈ s.header, -999 ≤ n ∧ n ≤ 9999
  length : 2 ≤ s.header.length
  atoms : ∀ a ∈ s.atoms, 1 ≤ a.num ∧ a.num < 2 ^ 53 ∧ (-99999 ≤ a.x ∧ a.x ≤ 999999) ∧ (-99999 ≤ a.y ∧ a.y ≤ 999999) ∧
    -99999 ≤ a.z ∧ a.z ≤ 999999
  weights : ∀ p ∈ s.weights, p.1 < 2 ^ 64 ∧ -999 ≤ p.2 ∧ p.2 ≤ 9999
  listed : s.header[1]? = some (-1) → ∀ p ∈ s.weights, 1 ≤ p.1 ∧ p.1 ≤ s.atoms.length
  curvils : ∀ c ∈ s.curvils, ∀ n ∈ c.nums, n ≤ 9999
  degmodes : ∀ d ∈ s.degmodes, d ≠ [] ∧ ∀ n ∈ d, n ≤ 9999
  dummies : ∀ d ∈ s.dummies, ∃ x y z, d.getVals s.atoms = some (x, y, z) ∧ (-99999 ≤ x ∧ x ≤ 999999) ∧
    (-99999 ≤ y ∧ y ≤ 999999) ∧ -99999 ≤ z ∧ z ≤ 999999

end Verif
