import Verif.Spec.Files
import Verif.Model.Print

/-!
# The text report: what it means

Only the data types of the model (`Text`, `Output`, `State`, `Quartic`, ..) are used here.
-/

namespace Verif

/-- `t` is `x` written with `p` decimals. -/
def ShowsFixed (p : Nat) (t : Text) (x : ℚ) : Prop := ∃ x', RealField t x' ∧ Printed p x x'

/-- `x'` is `x` rounded to `p + 1` significant digits: an integer of at most that many digits times a power of ten,
exact for zero and never zero otherwise, with a relative error of at most half a unit of the last digit. -/
def PrintedSci (p : Nat) (x x' : ℚ) : Prop :=
  (∃ k e : ℤ, |k| < 10 ^ (p + 1) ∧ x' = k * (10 : ℚ) ^ e) ∧ (x' = 0 ↔ x = 0) ∧ |x' - x| ≤ 1 / 2 / 10 ^ p * |x|

/-- `t` is `x` written with `p` decimals in scientific notation. -/
def ShowsSci (p : Nat) (t : Text) (x : ℚ) : Prop := ∃ x', RealField t x' ∧ PrintedSci p x x'

/-- The columns `a` to `b` of a line, not including `b`. -/
def columns (a b : Nat) (line : Text) : Text := (line.drop a).take (b - a)

/-- Columns `a` to `b` of a line hold one word, with the property `P`. -/
def Cell (P : Text → Prop) (line : Text) (a b : Nat) : Prop := ∃ t, fieldsOf (columns a b line) = [t] ∧ P t

/-- The lines that are not blank between the title `a` and the title `b`. -/
def between (a b : Text) (lines : List Text) : List Text :=
  (((lines.dropWhile fun l => !(l == a)).tail).takeWhile fun l => !(l == b)).filter fun l => !l.isEmpty

/-- A word with a colon in front of a number. -/
def LabelLine (P : Text → Prop) (label : Text) (line : Text) : Prop :=
  ∃ t, (label ++ [':', ' ']) <+: line ∧ fieldsOf (line.drop (label.length + 2)) = [t] ∧ P t

/-- The quanta of a state as the report shows them: for non-degenerate modes five columns each, for doubly degenerate
modes the two quantum numbers in parentheses. -/
def StateColumns (t : Text) : State → Prop
  | .i1st v => t.length = 5 * v.length ∧ ∀ i n, v[i]? = some n → Cell (fun u => NatField u n) t (5 * i) (5 * i + 5)
  | .i2st v => t.length = 5 * v.length ∧ ∀ i n, v[i]? = some n →
      ∃ a b, Numeral a n.1 ∧ Numeral b n.2 ∧ columns (5 * i) (5 * i + 5) t = '(' :: a ++ ',' :: b ++ [')']
  | _ => False

/-- The quanta of a state fit into the columns of the table of rotational constants. -/
def StateFits : State → Prop
  | .i1st v => ∀ n ∈ v, n < 10 ^ 5
  | .i2st v => ∀ n ∈ v, n.1 < 10 ∧ n.2 < 10
  | _ => False

/-- Two lists of the same length that correspond entry by entry. -/
def Matched {β γ : Type} (P : β → γ → Prop) (l : List β) (l' : List γ) : Prop :=
  l.length = l'.length ∧ ∀ (i : Nat) b, l[i]? = some b → ∃ c, l'[i]? = some c ∧ P b c

/-- The titles of the parts of a report. -/
def vibTitle : Text := "Vibrational Frequencies (cm-1):".toList
/-- See `vibTitle`. -/
def rotTitle : Text := "Rotational Constants (cm-1):".toList
/-- See `vibTitle`. -/
def quarticTitle : Text := "Quartic Distortion Constants (cm-1):".toList
/-- See `vibTitle`. -/
def sexticTitle : Text := "Sextic Distortion Constants (cm-1):".toList
/-- See `vibTitle`. -/
def coriolisTitle : Text := "Coriolis Resonances:".toList
/-- See `vibTitle`. -/
def fermi1Title : Text := "Type 1 Fermi Resonances:".toList
/-- See `vibTitle`. -/
def fermi2Title : Text := "Type 2 Fermi Resonances:".toList

/-- The title of the equilibrium constants in front of a report. -/
def equilTitle : Text := "Equilibrium Rotational Constants (cm-1):".toList

/-- The titles of a report. -/
def titles : List Text := [vibTitle, rotTitle, quarticTitle, sexticTitle, coriolisTitle, fermi1Title, fermi2Title]

/-- The names under which quartic distortion constants are reported. -/
def quarticNames {α : Type} (q : Quartic α) : List (String × α) :=
  [("Delta  J", q.delj), ("Delta  K", q.delk), ("Delta JK", q.deljk), ("delta  J", q.sdelj), ("delta  k", q.sdelk),
    ("D J ", q.dj), ("D JK", q.djk), ("D K ", q.dk), ("d 1 ", q.sd1), ("d 2 ", q.sd2), ("De  ", q.de)]

/-- The names under which sextic distortion constants are reported. -/
def sexticNames {α : Type} (s : Sextic α) : List (String × α) :=
  [("Phi  J", s.phij), ("Phi  K", s.phik), ("Phi JK", s.phijk), ("Phi KJ", s.phikj), ("phi  J", s.sphij),
    ("phi JK", s.sphijk), ("phi  k", s.sphik), ("H  J", s.hj), ("H  K", s.hk), ("H JK", s.hjk), ("H KJ", s.hkj),
    ("h  1", s.h1), ("h  2", s.h2), ("h  3", s.h3), ("He  ", s.he)]

/-- The lists of resonances of a report show every resonance, in order, a mode by `number` of it and an axis by its
letter. -/
def ResonancesShown (number : Nat → Nat) (r : Restst) (lines : List Text) : Prop :=
  Matched (fun c row => Cell (fun t => NatField t (number c.i)) row 0 5 ∧ Cell (fun t => NatField t (number c.j)) row 5 10 ∧
    Cell (fun t => c.axis = 0 ∧ t = ['A'] ∨ c.axis = 1 ∧ t = ['B'] ∨ c.axis = 2 ∧ t = ['C']) row 10 15)
    r.coriolis (between coriolisTitle fermi1Title lines) ∧
  Matched (fun f row => Cell (fun t => NatField t (number f.i)) row 0 5 ∧ Cell (fun t => NatField t (number f.j)) row 5 10)
    r.fermi1 (between fermi1Title fermi2Title lines) ∧
  Matched (fun f row => Cell (fun t => NatField t (number f.i)) row 0 5 ∧ Cell (fun t => NatField t (number f.j)) row 5 10 ∧
    Cell (fun t => NatField t (number f.k)) row 10 15) r.fermi2 (between fermi2Title [] lines)

end Verif
