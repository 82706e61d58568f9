import Verif.Spec.Input
import Verif.Spec.Load
import Verif.Model.Files

/-!
# Force-constant files and listings: what they mean

Only the data types of the model (`Text`, `FcRow`, `FcDump`) are used here.
-/

namespace Verif

/-- The fields of a text: the non-empty pieces between tabs, line feeds, form feeds, carriage returns and blanks. -/
def asciiFields (t : Text) : List Text :=
  (t.splitOnP fun c => [9, 10, 12, 13, 32].contains c.toNat).filter fun w => !w.isEmpty

/-- Row `b` comes after row `a` in a listing: its numbers come later, compared from the first on. -/
def FcRow.Before {α : Type} (a b : FcRow α) : Prop := List.Lex (· < ·) a.nums b.nums

/-- A line with the numbers `nums` followed by the value `v` printed with twelve decimals. -/
def ShowsRow (line : Text) (nums : List Nat) (v : ℚ) : Prop :=
  ∃ fs t x, fieldsOf line = fs ++ [t] ∧ List.Forall₂ NatField fs nums ∧ RealField t x ∧ Printed 12 v x

end Verif
