import Verif.Model.Resonance
import Mathlib.Algebra.BigOperators.Group.Finset.Basic

/-!
# What the anharmonic constants should be

The second-order formulas in partial fractions, with the fraction of a listed resonance left out.
Nothing here refers to the functions of the model except the two record types of resonances.
-/

namespace Verif

/-- The lists of resonances contain one that says `w_i + w_j ≈ w_k`. -/
def Listed (f1 : List Fermi1) (f2 : List Fermi2) (i j k : Nat) : Prop :=
  (i = j ∧ (⟨i, k⟩ : Fermi1) ∈ f1) ∨ (⟨i, j, k⟩ : Fermi2) ∈ f2 ∨ (⟨j, i, k⟩ : Fermi2) ∈ f2

instance (f1 : List Fermi1) (f2 : List Fermi2) (i j k : Nat) : Decidable (Listed f1 f2 i j k) :=
  inferInstanceAs (Decidable (_ ∨ _ ∨ _))

open Classical in
/-- The fraction `1 / d`, left out if `P`. -/
noncomputable def fracUnless (P : Prop) (d : ℝ) : ℝ := if P then 0 else 1 / d

/-- `x_kk` in partial fractions. -/
noncomputable def xkkSpec (R : Nat → Nat → Nat → Prop) (n : Nat) (w : Nat → ℝ)
    (F3 : Nat → Nat → Nat → ℝ) (F4 : Nat → Nat → Nat → Nat → ℝ) (k : Nat) : ℝ :=
  F4 k k k k / 16 - ∑ l ∈ Finset.range n, F3 k k l ^ 2 *
    (1 / (8 * w l) + 1 / (32 * (2 * w k + w l)) - fracUnless (R k k l) (2 * w k - w l) / 32)

/-- `x_kl` in partial fractions. -/
noncomputable def xklSpec (R : Nat → Nat → Nat → Prop) (n : Nat) (w : Nat → ℝ)
    (F3 : Nat → Nat → Nat → ℝ) (F4 : Nat → Nat → Nat → Nat → ℝ) (zeta : Nat → Nat → Nat → ℝ)
    (B : Nat → ℝ) (k l : Nat) : ℝ :=
  F4 k k l l / 4 - ∑ m ∈ Finset.range n, F3 k k m * F3 l l m / (4 * w m)
    - ∑ m ∈ Finset.range n, F3 k l m ^ 2 / 8 *
      (1 / (w k + w l + w m) + fracUnless (R k m l) (w k - w l + w m)
        - fracUnless (R k l m) (w k + w l - w m) + fracUnless (R l m k) (-w k + w l + w m))
    + (w k / w l + w l / w k) * ∑ a ∈ Finset.range 3, B a * zeta k l a ^ 2

/-- At most one of the three ways to combine the modes `k`, `l`, `m` is listed as a resonance. -/
def OneOfThree (R : Nat → Nat → Nat → Prop) (k l m : Nat) : Prop :=
  ¬ (R k l m ∧ R l m k) ∧ ¬ (R k l m ∧ R k m l) ∧ ¬ (R l m k ∧ R k m l)

/-- The two-mode term of the zero-point constant in partial fractions. -/
noncomputable def e0kklSpec (R : Prop) (F wk wl : ℝ) : ℝ :=
  3 * F ^ 2 / 128 * (fracUnless R (2 * wk - wl) - 1 / (2 * wk + wl))

/-- The three-mode term of the zero-point constant in partial fractions; `Rm` says that `k + l ≈ m` is
listed, and so on. -/
noncomputable def e0klmSpec (Rk Rl Rm : Prop) (F wk wl wm : ℝ) : ℝ :=
  -(F ^ 2 / 32) * (1 / (wk + wl + wm) - fracUnless Rl (wk - wl + wm) - fracUnless Rm (wk + wl - wm)
    - fracUnless Rk (-wk + wl + wm))

/-- The non-degenerate modes. -/
abbrev nonDeg (modes : List Mode) : List Nat :=
  modes.filterMap fun m => match m with | .i1 i => some i | _ => none

/-- The zero-point constant: quartic, cubic one-mode, two-mode and three-mode terms over the
non-degenerate modes `l`. -/
noncomputable def e0Spec (R : Nat → Nat → Nat → Prop) (l : List Nat) (w : Nat → ℝ)
    (F3 : Nat → Nat → Nat → ℝ) (F4 : Nat → Nat → Nat → Nat → ℝ) : ℝ :=
  (l.map fun k => F4 k k k k / 64).sum - 7 / 576 * (l.map fun k => F3 k k k ^ 2 / w k).sum
    + (l.map fun a => ((l.filter fun b => a ≠ b).map fun b =>
        e0kklSpec (R a a b) (F3 a a b) (w a) (w b)).sum).sum
    + (l.map fun a => ((l.filter fun b => b < a).map fun b => ((l.filter fun c => c < b).map fun c =>
        e0klmSpec (R b c a) (R a c b) (R a b c) (F3 a b c) (w a) (w b) (w c)).sum).sum).sum

/-- The denominators of the zero-point constant do not vanish. -/
def E0Regular (l : List Nat) (w : Nat → ℝ) : Prop :=
  (∀ a ∈ l, ∀ b ∈ l, a ≠ b → 2 * w a + w b ≠ 0 ∧ 2 * w a - w b ≠ 0) ∧
  ∀ a ∈ l, ∀ b ∈ l, ∀ c ∈ l, b < a → c < b → w a + w b + w c ≠ 0 ∧ w a - w b + w c ≠ 0 ∧
    w a + w b - w c ≠ 0 ∧ -w a + w b + w c ≠ 0

end Verif
