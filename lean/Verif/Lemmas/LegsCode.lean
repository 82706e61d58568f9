import Verif.Lemmas.LegsValue
import Verif.Lemmas.Xcalc
import Verif.Props.Polyad
import Mathlib.Algebra.BigOperators.Field

/-!
# The couplings of two states and the constants of the polyad code

Helpers for C108.
-/

namespace Verif.Osc

open Finset

section
variable {σ : Type} [Fintype σ] [DecidableEq σ]

theorem sum_units {n m : σ → ℤ} {s : σ → ℤ} (h : s = m - n) (hs : ∑ v, s v = 0) : ∑ v, (m - n) v = 0 := by rw [← h]; exact hs

theorem tess_aabb (C : Leg σ → Leg σ → Leg σ → Leg σ → ℝ) {n m : σ → ℤ} {i j : σ} (hij : i ≠ j)
    (h : unit i + unit i - unit j - unit j = m - n) : tess lop C (one n) m = six C n m i i j j := by
  rw [tess_six C (sum_units h (by simp [sum_sub_distrib, sum_add_distrib, sum_unit]))]
  refine sum_four_same _ fun x y v t hne => ?_
  obtain ⟨h1, h2⟩ := unit_four hij hij hij hij ((six_ne hne).trans h.symm)
  exact ⟨h1.elim (·.1) (·.1), h1.elim (·.2) (·.2), h2.elim (·.1) (·.1), h2.elim (·.2) (·.2)⟩

theorem tess_aabc (C : Leg σ → Leg σ → Leg σ → Leg σ → ℝ) {n m : σ → ℤ} {i j k : σ} (hij : i ≠ j) (hik : i ≠ k) (hjk : j ≠ k)
    (h : unit i + unit i - unit j - unit k = m - n) :
    tess lop C (one n) m = six C n m i i j k + six C n m i i k j := by
  rw [tess_six C (sum_units h (by simp [sum_sub_distrib, sum_add_distrib, sum_unit]))]
  refine sum_four_pair _ hjk fun x y v t hne => ?_
  obtain ⟨h1, h2⟩ := unit_four hij hik hij hik ((six_ne hne).trans h.symm)
  exact ⟨h1.elim (·.1) (·.1), h1.elim (·.2) (·.2), h2⟩

theorem tess_loop (C : Leg σ → Leg σ → Leg σ → Leg σ → ℝ) {n m : σ → ℤ} {i j : σ} (hij : i ≠ j)
    (h : unit i - unit j = m - n) :
    tess lop C (one n) m = (six C n m i i j i + six C n m i i i j) + (six C n m i j j j + six C n m j i j j) +
      ∑ k, if k ≠ i ∧ k ≠ j then six C n m i k j k + six C n m i k k j + six C n m k i j k + six C n m k i k j else 0 := by
  rw [tess_six C (sum_units h (by simp [sum_sub_distrib, sum_unit])),
    sum_four_loop _ hij fun x y v t hne => unit_loop hij ((six_ne hne).trans h.symm), sum_off2 _ hij]
  ring

/-- The part of second order of the matrix element between the states `n` and `m`; `g` gives the inverse energy
differences. -/
noncomputable def elt (w : σ → ℝ) (φ : σ → σ → σ → ℝ) (ψ : σ → σ → σ → σ → ℝ) (ζ : Nat → σ → σ → ℝ) (B : Nat → ℝ)
    (g : (σ → ℤ) → ℝ) (n m : σ → ℤ) : ℝ :=
  -cub φ (dia g n (cub φ (one n))) m + (qua ψ (one n) m - ∑ a ∈ range 3, B a * ang w (ζ a) (ang w (ζ a) (one n)) m)

theorem couple (w : σ → ℝ) {φ : σ → σ → σ → ℝ} (hφ : Sy3 φ) {ψ : σ → σ → σ → σ → ℝ} (hψ : Sy4 ψ) {ζ : Nat → σ → σ → ℝ}
    (hζ : ∀ a k, ζ a k k = 0) (B : Nat → ℝ) {g : (σ → ℤ) → ℝ} (hg : ∀ s, g (-s) = -g s) {n m : σ → ℤ}
    (hn : ∀ v, 0 ≤ n v) (hm : ∀ v, 0 ≤ m v) :
    (elt w φ ψ ζ B g n m * Real.sqrt (wt m / wt n) + elt w φ ψ ζ B g m n * Real.sqrt (wt n / wt m)) / 2 =
      Real.sqrt (wt m / wt n) * (tess lop (vq ψ) (one n) m / 96 -
        1 / 4 * ∑ a ∈ range 3, B a * tess lop (vc w (ζ a)) (one n) m + tess lop (vp φ g) (one n) m / 192) := by
  have pn := wt_pos n
  have pm := wt_pos m
  have e1 : Real.sqrt (wt n / wt m) = Real.sqrt (wt m / wt n) * (wt n / wt m) := by
    rw [Real.sqrt_div pm.le, Real.sqrt_div pn.le]
    have a := Real.sqrt_pos.2 pn
    have b := Real.sqrt_pos.2 pm
    rw [div_mul_div_comm, div_eq_div_iff b.ne' (by positivity)]
    linear_combination wt m * Real.mul_self_sqrt pn.le - wt n * Real.mul_self_sqrt pm.le
  have c := cub_couple hφ hg n m
  have ca := cub_adj hφ hg hn hm
  have qa := qua_adj hψ hn hm
  have aa : ∀ a, wt m * ang w (ζ a) (ang w (ζ a) (one n)) m = wt n * ang w (ζ a) (ang w (ζ a) (one m)) n :=
    fun a => ang_adj w (hζ a) hn hm
  have back : wt n / wt m * elt w φ ψ ζ B g m n = -cub φ (dia g m (cub φ (one n))) m +
      (qua ψ (one n) m - ∑ a ∈ range 3, B a * ang w (ζ a) (ang w (ζ a) (one n)) m) := by
    rw [div_mul_eq_mul_div, div_eq_iff pm.ne']
    unfold elt
    simp only [sum_range_succ, sum_range_zero]
    linear_combination -ca - qa + B 0 * aa 0 + B 1 * aa 1 + B 2 * aa 2
  have q4 : qua ψ (one n) m = tess lop (vq ψ) (one n) m / 96 := by
    rw [qua_tess, Pi.smul_apply, smul_eq_mul, rt4]
    show _ = tess lop (fun x y v t => ψ x.1 y.1 v.1 t.1) (one n) m / 96
    ring
  have a4 : ∀ a, ang w (ζ a) (ang w (ζ a) (one n)) m = 1 / 4 * tess lop (vc w (ζ a)) (one n) m := by
    intro a
    rw [ang_tess, Pi.smul_apply, smul_eq_mul, rt4]
    rfl
  have c' : cub φ (dia g n (cub φ (one n))) m + cub φ (dia g m (cub φ (one n))) m =
      -(1 / 96) * tess lop (vp φ g) (one n) m := c
  rw [e1, show elt w φ ψ ζ B g m n * (Real.sqrt (wt m / wt n) * (wt n / wt m)) =
    Real.sqrt (wt m / wt n) * (wt n / wt m * elt w φ ψ ζ B g m n) by ring, back]
  unfold elt
  simp only [a4, q4, sum_range_succ, sum_range_zero]
  linear_combination -(Real.sqrt (wt m / wt n) / 2) * c'

end

variable {N : Nat}

/-- A leg as the code writes it. -/
def sgn (x : Leg (Fin N)) : SignIdx := if x.2 then .plus x.1 else .minus x.1

/-- The inverse denominators of the code are `g`. -/
def Den (w : Nat → ℝ) (dnm : T3 ℝ) (g : (Fin N → ℤ) → ℝ) : Prop :=
  (∀ (x y : Leg (Fin N)) (k : Fin N), denom w dnm (sgn x) (sgn y) (.minus k) = g (net x + net y - unit k)) ∧
  ∀ k : Fin N, g (-unit k) = -(1 / w k)

variable {w : Nat → ℝ} {dnm : T3 ℝ} {g : (Fin N → ℤ) → ℝ}

theorem pairF_den (hD : Den w dnm g) {φ : Nat → Nat → Nat → ℝ} (hφ : Sy3 fun i j k : Fin N => φ i j k) (x y v t : Leg (Fin N)) :
    pairF (fun i j k : Fin N => φ i j k) g x y v t = ∑ k : Fin N, φ x.1 y.1 k * φ v.1 t.1 k *
      (denom w dnm (sgn x) (sgn y) (.minus k) + denom w dnm (sgn x.flip) (sgn y.flip) (.minus k)) := by
  unfold pairF
  refine sum_congr rfl fun k _ => ?_
  have s : ∀ a b c : Fin N, φ c a b = φ a b c := fun a b c => (hφ c a b).1.trans (hφ a c b).2
  show φ k x.1 y.1 * φ k v.1 t.1 * _ = _
  rw [hD.1, hD.1, net_flip, net_flip, s x.1, s v.1]
  rw [show -net x + -net y - unit k = -(net x + net y) - unit k by abel]

theorem den_comm (hD : Den w dnm g) (x y : Leg (Fin N)) (k : Fin N) :
    denom w dnm (sgn x) (sgn y) (.minus k) = denom w dnm (sgn y) (sgn x) (.minus k) := by
  rw [hD.1, hD.1, add_comm]

theorem den_off (hD : Den w dnm g) (i k : Fin N) : denom w dnm (.plus i) (.minus i) (.minus k) = -(1 / w k) ∧
    denom w dnm (.minus i) (.plus i) (.minus k) = -(1 / w k) := by
  have a := hD.1 (i, true) (i, false) k
  have b := hD.1 (i, false) (i, true) k
  simp only [sgn, if_true, Bool.false_eq_true, if_false, net] at a b
  exact ⟨by rw [a, ← hD.2 k]; congr 1; abel, by rw [b, ← hD.2 k]; congr 1; abel⟩

theorem foldl_fin (f : Nat → ℝ) : (List.range N).foldl (fun s k => s - f k) (Arith.lit 0.0) = -∑ k : Fin N, f k := by
  rw [foldl_sub_rangeX, lit_real, Finset.sum_range]
  norm_num

theorem sumL_fin (f : Nat → ℝ) : sumL (List.range N) f = ∑ k : Fin N, f k := by
  rw [sumL_real, ← Finset.sum_range]
  rw [← sumTo_real, sumTo, foldl_add_real, lit_real]; simp

theorem lits : (Arith.lit 0.0 : ℝ) = 0 ∧ (Arith.lit 1.0 : ℝ) = 1 ∧ (Arith.lit 2.0 : ℝ) = 2 ∧ (Arith.lit 4.0 : ℝ) = 4 ∧
    (Arith.lit 0.5 : ℝ) = 1 / 2 ∧ (Arith.lit (-0.5) : ℝ) = -(1 / 2) ∧ (Arith.lit 0.25 : ℝ) = 1 / 4 ∧
    (Arith.lit (-0.25) : ℝ) = -(1 / 4) ∧ (Arith.lit 0.125 : ℝ) = 1 / 8 ∧ (Arith.lit (-2.0) : ℝ) = -2 ∧
    (Arith.lit (-4.0) : ℝ) = -4 ∧ (Arith.lit 16.0 : ℝ) = 16 := by
  simp only [lit_real]
  norm_num

theorem code_aabb (hD : Den w dnm g) {φ : Nat → Nat → Nat → ℝ} (hφ : Sy3 fun i j k : Fin N => φ i j k)
    (ψ : Nat → Nat → Nat → Nat → ℝ) (B : Nat → ℝ) (ζ : Nat → Nat → Nat → ℝ) (i j : Fin N) :
    res2aAabb (List.range N) w B ζ φ ψ dnm i j = ψ i i j j / 4 -
      ∑ a ∈ range 3, B a * (ζ i j a ^ 2 * (w i + w j) ^ 2 / (w i * w j)) +
      (pairF (fun i j k : Fin N => φ i j k) g (i, true) (i, true) (j, false) (j, false) +
        pairF (fun i j k : Fin N => φ i j k) g (j, false) (j, false) (i, true) (i, true) +
        4 * pairF (fun i j k : Fin N => φ i j k) g (i, true) (j, false) (i, true) (j, false)) / 16 := by
  unfold res2aAabb
  simp only [sumL_fin, lits, sq_real, pairF_den hD hφ, sgn, Leg.flip, if_true, Bool.false_eq_true, if_false, Bool.not_true,
    Bool.not_false, sum_range_succ, sum_range_zero]
  rw [add_assoc (_ + _), ← sum_add_distrib]
  rw [show ∀ a b c d e f : ℝ, a = d → b = -e → c = f → a + b + c = d - e + f from fun a b c d e f h1 h2 h3 => by rw [h1, h2, h3]; ring]
  · norm_num
  · ring
  · rw [← sum_add_distrib, mul_sum, ← sum_add_distrib, Finset.sum_div]
    refine sum_congr rfl fun k _ => ?_
    ring

theorem code_aabc (hD : Den w dnm g) {φ : Nat → Nat → Nat → ℝ} (hφ : Sy3 fun i j k : Fin N => φ i j k)
    (ψ : Nat → Nat → Nat → Nat → ℝ) (B : Nat → ℝ) (ζ : Nat → Nat → Nat → ℝ) (i j k : Fin N) :
    res2aAabc (List.range N) w B ζ φ ψ dnm i j k = ψ i i j k / 2 -
      ∑ a ∈ range 3, B a * (2 * (ζ i j a * ζ i k a) * (w i + w j) * (w i + w k) / (w i * Real.sqrt (w j * w k))) +
      (pairF (fun i j k : Fin N => φ i j k) g (i, true) (i, true) (j, false) (k, false) +
        pairF (fun i j k : Fin N => φ i j k) g (j, false) (k, false) (i, true) (i, true) +
        2 * pairF (fun i j k : Fin N => φ i j k) g (i, true) (j, false) (i, true) (k, false) +
        2 * pairF (fun i j k : Fin N => φ i j k) g (i, true) (k, false) (i, true) (j, false)) / 8 := by
  unfold res2aAabc
  simp only [foldl_fin]
  simp only [lits, sqrt_real, pairF_den hD hφ, sgn, Leg.flip, if_true, Bool.false_eq_true, if_false, Bool.not_true,
    Bool.not_false, sum_range_succ, sum_range_zero]
  rw [add_assoc (_ + _), ← neg_add, ← sum_add_distrib, ← sum_neg_distrib]
  rw [show ∀ a b c d e f : ℝ, a = d → b = -e → c = f → a + b + c = d - e + f from fun a b c d e f h1 h2 h3 => by rw [h1, h2, h3]; ring]
  · ring
  · ring
  · rw [← sum_add_distrib, mul_sum, mul_sum, ← sum_add_distrib, ← sum_add_distrib, Finset.sum_div]
    refine sum_congr rfl fun l _ => ?_
    ring

theorem code_aaab (hD : Den w dnm g) {φ : Nat → Nat → Nat → ℝ} (hφ : Sy3 fun i j k : Fin N => φ i j k)
    (ψ : Nat → Nat → Nat → Nat → ℝ) (i j : Fin N) :
    res2aAaab (List.range N) w φ ψ dnm i j = ψ i i i j / 2 +
      (pairF (fun i j k : Fin N => φ i j k) g (i, true) (i, true) (i, false) (j, false) +
        pairF (fun i j k : Fin N => φ i j k) g (i, false) (j, false) (i, true) (i, true) +
        2 * pairF (fun i j k : Fin N => φ i j k) g (i, true) (i, false) (i, true) (j, false) +
        2 * pairF (fun i j k : Fin N => φ i j k) g (i, true) (j, false) (i, true) (i, false)) / 8 := by
  unfold res2aAaab
  simp only [foldl_fin]
  simp only [lits, pairF_den hD hφ, sgn, Leg.flip, if_true, Bool.false_eq_true, if_false, Bool.not_true,
    Bool.not_false, (den_off hD _ _).1, (den_off hD _ _).2]
  rw [add_assoc (_ + _), ← neg_add, ← sum_add_distrib, ← sum_neg_distrib]
  rw [show ∀ a b c d f : ℝ, a = d → b = 0 → c = f → a + b + c = d + f from fun a b c d f h1 h2 h3 => by rw [h1, h2, h3]; ring]
  · norm_num
  · norm_num
  · rw [← sum_add_distrib, mul_sum, mul_sum, ← sum_add_distrib, ← sum_add_distrib, Finset.sum_div]
    refine sum_congr rfl fun l _ => ?_
    ring

/-- The same from the other side. -/
theorem code_aaab' (hD : Den w dnm g) {φ : Nat → Nat → Nat → ℝ} (hφ : Sy3 fun i j k : Fin N => φ i j k)
    (ψ : Nat → Nat → Nat → Nat → ℝ) (i j : Fin N) :
    res2aAaab (List.range N) w φ ψ dnm j i = ψ j j j i / 2 +
      (pairF (fun i j k : Fin N => φ i j k) g (j, false) (j, false) (i, true) (j, true) +
        pairF (fun i j k : Fin N => φ i j k) g (i, true) (j, true) (j, false) (j, false) +
        2 * pairF (fun i j k : Fin N => φ i j k) g (j, true) (j, false) (i, true) (j, false) +
        2 * pairF (fun i j k : Fin N => φ i j k) g (i, true) (j, false) (j, true) (j, false)) / 8 := by
  rw [code_aaab hD hφ, pairF_left hφ g (i, true) (j, true), pairF_right hφ g (j, false) (j, false) (i, true) (j, true),
    pairF_right hφ g (j, true) (j, false) (i, true) (j, false), pairF_left hφ g (i, true) (j, false)]
  simp only [pairF_den hD hφ, sgn, Leg.flip, if_true, Bool.false_eq_true, if_false, Bool.not_true, Bool.not_false]
  congr 2
  simp only [mul_sum, ← sum_add_distrib]
  refine sum_congr rfl fun l _ => ?_
  ring

theorem code_acbc (hD : Den w dnm g) {φ : Nat → Nat → Nat → ℝ} (hφ : Sy3 fun i j k : Fin N => φ i j k)
    (ψ : Nat → Nat → Nat → Nat → ℝ) (hψ : Sy4 fun i j k l : Fin N => ψ i j k l) (B : Nat → ℝ) (ζ : Nat → Nat → Nat → ℝ) (i j k : Fin N) :
    res2aAcbc (List.range N) w B ζ φ ψ dnm i k j = ψ i j k k / 2 +
      ∑ a ∈ range 3, B a * (2 * (ζ i k a * ζ j k a) * (w i * w j + w k ^ 2) / (w k * Real.sqrt (w i * w j))) +
      (pairF (fun i j k : Fin N => φ i j k) g (i, true) (j, false) (k, true) (k, false) +
        pairF (fun i j k : Fin N => φ i j k) g (k, true) (k, false) (i, true) (j, false) +
        pairF (fun i j k : Fin N => φ i j k) g (i, true) (k, true) (j, false) (k, false) +
        pairF (fun i j k : Fin N => φ i j k) g (j, false) (k, false) (i, true) (k, true) +
        pairF (fun i j k : Fin N => φ i j k) g (i, true) (k, false) (j, false) (k, true) +
        pairF (fun i j k : Fin N => φ i j k) g (j, false) (k, true) (i, true) (k, false)) / 8 := by
  unfold res2aAcbc
  simp only [foldl_fin]
  simp only [lits, sqrt_real, sq_real, pairF_den hD hφ, sgn, Leg.flip, if_true, Bool.false_eq_true, if_false, Bool.not_true,
    Bool.not_false, sum_range_succ, sum_range_zero, (den_off hD _ _).1, (den_off hD _ _).2]
  rw [add_assoc (_ + _), ← neg_add, ← sum_add_distrib, ← sum_neg_distrib]
  rw [show ∀ a b c d e f : ℝ, a = d → b = e → c = f → a + b + c = d + e + f from fun a b c d e f h1 h2 h3 => by rw [h1, h2, h3]]
  · rw [show ψ i k j k = ψ i j k k from (hψ i k j k).2.1]
  · ring
  · simp only [← sum_add_distrib]
    rw [Finset.sum_div]
    refine sum_congr rfl fun l _ => ?_
    ring

end Verif.Osc
