import Verif.Arith

/-!
# Rounded arithmetic

An instance of `Arith` in which the result of every operation is rounded, as the results of `f64` operations are. It has
no counterpart in /repo. There is no overflow, underflow or NaN: division by zero gives what it gives in `ℝ`, and
theorems about this instance must have hypotheses that keep denominators away from zero.
-/

namespace Verif

/-- A number computed with rounding `rnd`. -/
structure Fl (rnd : ℝ → ℝ) where
  /-- its value -/
  val : ℝ

variable {rnd : ℝ → ℝ}

open Classical in
/-- Every result is rounded, but those of negation and `abs`. Comparisons are exact. (`sqrt`, `powf`, `atan`, `sin`,
`cos` of `f64` need not be correctly rounded except `sqrt`; of the others, only `powf` is used, in C114.) -/
noncomputable instance : Arith (Fl rnd) where
  add x y := ⟨rnd (x.val + y.val)⟩
  sub x y := ⟨rnd (x.val - y.val)⟩
  mul x y := ⟨rnd (x.val * y.val)⟩
  div x y := ⟨rnd (x.val / y.val)⟩
  neg x := ⟨-x.val⟩
  lit q := ⟨rnd q⟩
  sqrt x := ⟨rnd (Real.sqrt x.val)⟩
  abs x := ⟨|x.val|⟩
  powf15 x := ⟨rnd (x.val ^ (3 / 2 : ℝ))⟩
  atan x := ⟨rnd (Real.arctan x.val)⟩
  sin x := ⟨rnd (Real.sin x.val)⟩
  cos x := ⟨rnd (Real.cos x.val)⟩
  pi := ⟨rnd Real.pi⟩
  lt x y := decide (x.val < y.val)
  le x y := decide (x.val ≤ y.val)

end Verif
