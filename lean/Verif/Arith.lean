import Mathlib.Data.Real.Basic
import Mathlib.Analysis.SpecialFunctions.Pow.Real
import Mathlib.Analysis.SpecialFunctions.Trigonometric.Arctan

/-!
# Arithmetic and arrays

The Rust code computes with `f64`.  The model is written over an arbitrary type with the
operations below and *no laws*, so that whatever is proved for every `Arith α` holds for IEEE
doubles as well.  Algebraic statements use the instance `Arith ℝ`.
-/

namespace Verif

/-- The `f64` operations used in /repo/spectro/src (all files), without laws.
`lit q` is the literal `q`; `lt`, `le` are the boolean comparisons `<`, `<=`; `powf15 x` is
`x.powf(1.5)` (lib.rs:226, alphas.rs:101); `pi` is `std::f64::consts::PI` (lib.rs:5).
Rounding is whatever an instance does. -/
class Arith (α : Type) extends Add α, Sub α, Mul α, Div α, Neg α where
  /-- a decimal literal -/
  lit : ℚ → α
  /-- `f64::sqrt` -/
  sqrt : α → α
  /-- `f64::abs` -/
  abs : α → α
  /-- `powf(1.5)` -/
  powf15 : α → α
  /-- `f64::atan` -/
  atan : α → α
  /-- `f64::sin` -/
  sin : α → α
  /-- `f64::cos` -/
  cos : α → α
  /-- `PI` -/
  pi : α
  /-- `<` -/
  lt : α → α → Bool
  /-- `<=` -/
  le : α → α → Bool

open Classical in
/-- Exact real arithmetic (no counterpart in /repo: idealises `f64`, used for the algebraic
theorems only). -/
noncomputable instance instArithReal : Arith ℝ where
  lit q := (q : ℝ)
  sqrt := Real.sqrt
  abs x := |x|
  powf15 x := x ^ (3 / 2 : ℝ)
  atan := Real.arctan
  sin := Real.sin
  cos := Real.cos
  pi := Real.pi
  lt a b := decide (a < b)
  le a b := decide (a ≤ b)

section
variable {α : Type} [Arith α]

/-- `x.powi(2)` (used throughout /repo/spectro/src), modelled as `x * x`. -/
def sq (x : α) : α := x * x

/-- `n as f64` for an unsigned `n` (e.g. lib.rs:263). -/
def ofNat (n : Nat) : α := Arith.lit (n : ℚ)

/-- `let mut s = 0.0; for i in 0..n { s += f(i) }`, the accumulation loop used throughout
/repo/spectro/src (e.g. utils.rs:191-194). -/
def sumTo (n : Nat) (f : Nat → α) : α :=
  (List.range n).foldl (fun s i => s + f i) (Arith.lit 0)

/-- `let mut s = 0.0; for x in l { s += f(x) }` and `l.iter().map(f).sum()`
(e.g. utils.rs:273-277). -/
def sumL {β : Type} (l : List β) (f : β → α) : α :=
  l.foldl (fun s x => s + f x) (Arith.lit 0)

end

/-- A vector (`Dvec`, `Vec<f64>`; lib.rs:59) that is only indexed within its length: a function
of the index.  The length is carried separately. -/
abbrev Vec (α : Type) := Nat → α

/-- A matrix (`Dmat`, `Mat3`; lib.rs:58-60) that is only indexed within its shape. -/
abbrev Mat (α : Type) := Nat → Nat → α

/-- `tensor::Tensor3` (lib.rs:57), indexed within its shape. -/
abbrev T3 (α : Type) := Nat → Nat → Nat → α

/-- `tensor::Tensor4` (lib.rs:23), indexed within its shape. -/
abbrev T4 (α : Type) := Nat → Nat → Nat → Nat → α

/-- `m[(i, j)] = v` (e.g. lib.rs:282). -/
def Mat.set {α : Type} (m : Mat α) (i j : Nat) (v : α) : Mat α :=
  fun a b => if a = i ∧ b = j then v else m a b

/-- `t[(i, j, k)] = v` (e.g. load.rs:431). -/
def T3.set {α : Type} (t : T3 α) (i j k : Nat) (v : α) : T3 α :=
  fun a b c => if a = i ∧ b = j ∧ c = k then v else t a b c

/-- `t[(i, j, k, l)] = v` (e.g. load.rs:474). -/
def T4.set {α : Type} (t : T4 α) (i j k l : Nat) (v : α) : T4 α :=
  fun a b c d => if a = i ∧ b = j ∧ c = k ∧ d = l then v else t a b c d

end Verif
