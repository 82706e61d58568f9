import Verif.Arith
import Mathlib.Analysis.SpecialFunctions.Trigonometric.Arctan

/-!
# Real numbers with infinities and NaN

The model over `ℝ` gives a division by zero the value zero. This instance of `Arith` follows IEEE 754 in what becomes
of infinities and NaN instead. It has no counterpart in /repo. It has one zero, which counts as positive, and no rounding or
overflow.
-/

namespace Verif

/-- A number, an infinity (`true` is negative) or NaN. -/
inductive Ext where
  | fin (x : ℝ)
  | inf (neg : Bool)
  | nan

namespace Ext

/-- Addition; infinities of different sign give NaN. -/
def add : Ext → Ext → Ext
  | nan, _ => nan
  | _, nan => nan
  | fin x, fin y => fin (x + y)
  | inf a, inf b => if a = b then inf a else nan
  | inf a, fin _ => inf a
  | fin _, inf b => inf b

/-- Negation. -/
def neg : Ext → Ext
  | fin x => fin (-x)
  | inf a => inf !a
  | nan => nan

open Classical in
/-- Multiplication; infinity times zero is NaN. -/
noncomputable def mul : Ext → Ext → Ext
  | nan, _ => nan
  | _, nan => nan
  | fin x, fin y => fin (x * y)
  | inf a, inf b => inf (a ^^ b)
  | inf a, fin y => if y = 0 then nan else inf (a ^^ decide (y < 0))
  | fin x, inf b => if x = 0 then nan else inf (decide (x < 0) ^^ b)

open Classical in
/-- Division; zero by zero and infinity by infinity are NaN. -/
noncomputable def div : Ext → Ext → Ext
  | nan, _ => nan
  | _, nan => nan
  | fin x, fin y => if y = 0 then if x = 0 then nan else inf (decide (x < 0)) else fin (x / y)
  | inf _, inf _ => nan
  | inf a, fin y => inf (a ^^ decide (y < 0))
  | fin _, inf _ => fin 0

open Classical in
/-- `x < y`, false if one is NaN. -/
noncomputable def lt : Ext → Ext → Bool
  | nan, _ => false
  | _, nan => false
  | fin x, fin y => decide (x < y)
  | inf a, inf b => a && !b
  | inf a, fin _ => a
  | fin _, inf b => !b

open Classical in
/-- `x <= y`, false if one is NaN. -/
noncomputable def le : Ext → Ext → Bool
  | nan, _ => false
  | _, nan => false
  | fin x, fin y => decide (x ≤ y)
  | inf a, inf b => a || !b
  | inf a, fin _ => a
  | fin _, inf b => !b

open Classical in
noncomputable instance : Arith Ext where
  add := add
  sub x y := add x (neg y)
  mul := mul
  div := div
  neg := neg
  lit q := fin q
  sqrt
    | fin x => if x < 0 then nan else fin (Real.sqrt x)
    | inf a => if a then nan else inf false
    | nan => nan
  abs
    | fin x => fin |x|
    | inf _ => inf false
    | nan => nan
  powf15
    | fin x => if x < 0 then nan else fin (x ^ (3 / 2 : ℝ))
    | inf _ => inf false
    | nan => nan
  atan
    | fin x => fin (Real.arctan x)
    | inf a => fin (if a then -(Real.pi / 2) else Real.pi / 2)
    | nan => nan
  sin
    | fin x => fin (Real.sin x)
    | _ => nan
  cos
    | fin x => fin (Real.cos x)
    | _ => nan
  pi := fin Real.pi
  lt := lt
  le := le

end Ext

end Verif
