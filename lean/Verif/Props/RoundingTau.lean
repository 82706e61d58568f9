import Verif.Props.RoundingFields
import Verif.Props.Quartic

/-!
# C115: rounding errors of the distortion constants `τ`
-/

namespace Verif

open Finset

variable {u : ℝ} {rnd : ℝ → ℝ}

section
variable (c : RoundCtx u 1 rnd)
include c

theorem rel_times {e1 : Nat} {y : ℝ} {b : Fl rnd} (h : Rel u 1 e1 0 y b) (a : Fl rnd) : Rel u 1 (e1 + 1) 0 (y * a.val) (b * a) :=
  rel_mul c h (rel_exact a _ rfl) (by omega) le_rfl

theorem acc_tauTerm (w p q r s a b : Fl rnd) :
    Acc u 1 7 0 (a.val * b.val / (sq w.val * p.val * q.val * r.val * s.val)) (a * b / (sq w * p * q * r * s))
      (|a.val| * |b.val| / |sq w.val * p.val * q.val * r.val * s.val|) :=
  acc_div c (acc_mul c (e := 1) (d := 0) (acc_val c a) (acc_val c b) (by omega) le_rfl)
    (rel_times c (rel_times c (rel_times c (rel_times c
      (rel_mul c (e := 1) (d := 0) (rel_exact w _ rfl) (rel_exact w _ rfl) (by omega) le_rfl) p) q) r) s) rfl (by omega) le_rfl

theorem acc_tau (n : Nat) (w I : Vec (Fl rnd)) (A : Mat (Fl rnd)) (i j k l : Nat) :
    Acc u 1 (n + 11) 0
      (3.833384078e04 / 2 * distortion n (fun a => (w a).val) (fun a => (I a).val) (fun v p q => (A v (pairIdx p q)).val) i j k l)
      (makeTau n w I A i j k l)
      (3.833384078e04 / 2 * distortionSize n (fun a => (w a).val) (fun a => (I a).val) (fun v p q => (A v (pairIdx p q)).val) i j k l) := by
  have s := acc_plus c n 7 (by omega) _ _ _ fun v _ => acc_tauTerm c (w v) (I i) (I j) (I k) (I l)
    (A v (ioff (max i j + 1) + min i j)) (A v (ioff (max k l + 1) + min k l))
  have f := acc_mul c (e := 3) (d := 0) (acc_neg c (acc_lit c 0.5 (1 / 2) (by norm_num [abs_of_pos])))
    (acc_lit c 3.833384078e04 3.833384078e04 (by norm_num [abs_of_pos])) (by omega) le_rfl
  have h := acc_mul c (e := n + 11) (d := 0) f s (by omega) le_rfl
  have e1 : -(Arith.lit 0.5 : ℝ) * Arith.lit 3.833384078e04 *
      sumTo n (fun v => (A v (ioff (max i j + 1) + min i j)).val * (A v (ioff (max k l + 1) + min k l)).val /
        (sq (w v).val * (I i).val * (I j).val * (I k).val * (I l).val)) =
      3.833384078e04 / 2 * distortion n (fun a => (w a).val) (fun a => (I a).val) (fun v p q => (A v (pairIdx p q)).val) i j k l := by
    unfold distortion pairIdx
    rw [sumTo_real, lit_real, lit_real, mul_neg, mul_sum, mul_sum, ← sum_neg_distrib]
    refine sum_congr rfl fun v _ => ?_
    rw [sq_real]
    simp only [mul_assoc]
    norm_num
    ring
  have e2 : 1 / 2 * 3.833384078e04 * ∑ v ∈ range n, |(A v (ioff (max i j + 1) + min i j)).val| *
      |(A v (ioff (max k l + 1) + min k l)).val| / |sq (w v).val * (I i).val * (I j).val * (I k).val * (I l).val| =
      3.833384078e04 / 2 * distortionSize n (fun a => (w a).val) (fun a => (I a).val)
        (fun v p q => (A v (pairIdx p q)).val) i j k l := by
    unfold distortionSize pairIdx
    rw [mul_sum, mul_sum]
    refine sum_congr rfl fun v _ => ?_
    rw [sq_real, show (w v).val ^ 2 * (I i).val * (I j).val * (I k).val * (I l).val =
      (w v).val ^ 2 * ((I i).val * (I j).val * (I k).val * (I l).val) by ring, abs_mul, abs_of_nonneg (sq_nonneg (w v).val)]
    ring
  rw [e1, e2] at h
  exact h

end

/-- C115: computed with rounded arithmetic, `τ_ijkl` differs from its exact value for the same inertia derivatives, frequencies and
moments by at most `2 (n + 11) u` times the sum of the sizes of its terms. -/
theorem c115_tau (hr : Rounds u rnd) (n : Nat) (hu : ((n : ℝ) + 14) * u ≤ 1 / 2) (w I : Vec (Fl rnd)) (A : Mat (Fl rnd)) (i j k l : Nat) :
    let A' := fun v p q => (A v (pairIdx p q)).val
    |(makeTau n w I A i j k l).val - 3.833384078e04 / 2 * distortion n (fun a => (w a).val) (fun a => (I a).val) A' i j k l| ≤
      2 * ((n + 11) * u) * (3.833384078e04 / 2 * distortionSize n (fun a => (w a).val) (fun a => (I a).val) A' i j k l) := by
  intro A'
  have u0 := hr.1
  have c := roundCtx_one hr (by nlinarith [Nat.cast_nonneg (α := ℝ) n])
  have g := growth_small hr (n + 11) (by push_cast; nlinarith)
  have h := acc_tau c n w I A i j k l
  refine h.1.trans (mul_le_mul_of_nonneg_right (g.trans (le_of_eq ?_)) ((abs_nonneg _).trans h.2))
  push_cast
  ring

/-- C115: `τ_ijij` has terms of one sign, so its relative error is at most `2 (n + 11) u`. -/
theorem c115_relative (hr : Rounds u rnd) (n : Nat) (hu : ((n : ℝ) + 14) * u ≤ 1 / 2) (w I : Vec (Fl rnd)) (A : Mat (Fl rnd))
    (i j : Nat) :
    let τ := 3.833384078e04 / 2 * distortion n (fun a => (w a).val) (fun a => (I a).val) (fun v p q => (A v (pairIdx p q)).val) i j i j
    |(makeTau n w I A i j i j).val - τ| ≤ 2 * ((n + 11) * u) * |τ| := by
  intro τ
  refine (c115_tau hr n hu w I A i j i j).trans (le_of_eq ?_)
  congr 1
  simp only [τ]
  rw [abs_mul, abs_of_pos (show (0 : ℝ) < 3.833384078e04 / 2 by norm_num)]
  congr 1
  unfold distortion distortionSize
  have e : |(I i).val * (I j).val * (I i).val * (I j).val| = (I i).val * (I j).val * (I i).val * (I j).val := by
    rw [show (I i).val * (I j).val * (I i).val * (I j).val = ((I i).val * (I j).val) ^ 2 by ring, abs_of_nonneg (sq_nonneg _)]
  simp only [abs_mul_abs_self]
  rw [e, abs_neg, abs_of_nonneg]
  refine sum_nonneg fun v _ => div_nonneg (mul_self_nonneg _) (mul_nonneg (sq_nonneg _) ?_)
  rw [← e]
  positivity

/-- C115: the combinations `τ'_ij`, which is `τ_iiii` for `i = j` and `τ_iijj + 2 τ_ijij` otherwise. -/
theorem c115_prime (hr : Rounds u rnd) (n : Nat) (hu : ((n : ℝ) + 14) * u ≤ 1 / 2) (w I : Vec (Fl rnd)) (A : Mat (Fl rnd)) (i j : Nat)
    (hij : i ≠ j) :
    let D := distortion n (fun a => (w a).val) (fun a => (I a).val) (fun v p q => (A v (pairIdx p q)).val)
    let S := distortionSize n (fun a => (w a).val) (fun a => (I a).val) (fun v p q => (A v (pairIdx p q)).val)
    |(tauPrime (makeTau n w I A) i j).val - 3.833384078e04 / 2 * (D i i j j + 2 * D i j i j)| ≤
      2 * ((n + 14) * u) * (3.833384078e04 / 2 * (S i i j j + 2 * S i j i j)) := by
  intro D S
  have u0 := hr.1
  have c := roundCtx_one hr (by nlinarith [Nat.cast_nonneg (α := ℝ) n])
  have g := growth_small hr (n + 14) (by push_cast; nlinarith)
  have h := acc_add c (e := n + 14) (d := 0) (acc_tau c n w I A i i j j) (acc_mul c (e := n + 13) (d := 0)
    (acc_lit c 2.0 2 (by norm_num)) (acc_tau c n w I A i j i j) (by omega) le_rfl) (by omega) (by omega) le_rfl le_rfl
  have e : (tauPrime (makeTau n w I A) i j) = makeTau n w I A i i j j + Arith.lit 2.0 * makeTau n w I A i j i j := by
    unfold tauPrime
    simp only [ne_eq, hij, not_false_eq_true, if_true]
  rw [e]
  have e1 : 3.833384078e04 / 2 * (D i i j j + 2 * D i j i j) =
      3.833384078e04 / 2 * D i i j j + (Arith.lit 2.0 : ℝ) * (3.833384078e04 / 2 * D i j i j) := by rw [lit_real]; norm_num; ring
  have e2 : 3.833384078e04 / 2 * (S i i j j + 2 * S i j i j) = 3.833384078e04 / 2 * S i i j j + 2 * (3.833384078e04 / 2 * S i j i j) := by ring
  rw [e1, e2]
  refine h.1.trans (mul_le_mul_of_nonneg_right (g.trans (le_of_eq ?_)) ((abs_nonneg _).trans h.2))
  push_cast
  ring

/-- Arithmetic with 53 binary digits and six modes: the hypotheses of C115 hold, and the constant is not zero. -/
example : Rounds (2 ^ (-(53 : ℕ) : ℤ)) (nearest 53) ∧ (((6 : ℕ) : ℝ) + 14) * 2 ^ (-(53 : ℕ) : ℤ) ≤ 1 / 2 ∧
    distortion 6 (fun _ => 1000) (fun a => (a : ℝ) + 1) (fun v p q => (v : ℝ) + p - q) 0 1 0 1 ≠ 0 := by
  refine ⟨c107_nearest 53 (by norm_num), by norm_num, ?_⟩
  norm_num [distortion, sum_range_succ]

end Verif
