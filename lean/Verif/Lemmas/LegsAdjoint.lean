import Verif.Lemmas.LegsOsc
import Mathlib.Data.Nat.Factorial.Basic

/-!
# The matrix elements read from right to left

Helpers for C108: raising and lowering operators are adjoint to each other for the norms `n!` of the states.
-/

namespace Verif.Osc

open Finset
open scoped Nat

variable {σ : Type} [Fintype σ] [DecidableEq σ]

/-- The adjoint operator. -/
def Leg.flip (l : Leg σ) : Leg σ := (l.1, !l.2)

omit [Fintype σ] [DecidableEq σ] in
theorem flip_flip (l : Leg σ) : l.flip.flip = l := by obtain ⟨i, u⟩ := l; simp [Leg.flip]

omit [Fintype σ] in
theorem net_flip (l : Leg σ) : net l.flip = -net l := by
  obtain ⟨i, u⟩ := l
  cases u <;> simp [net, Leg.flip]

/-- The norm of a state. -/
def wt (m : σ → ℤ) : ℝ := ∏ v, ((m v).toNat ! : ℝ)

theorem wt_pos (m : σ → ℤ) : 0 < wt m := prod_pos fun v _ => by exact_mod_cast Nat.factorial_pos _

theorem wt_add {m : σ → ℤ} (i : σ) (h : 0 ≤ m i) : wt (m + unit i) = ((m i : ℝ) + 1) * wt m := by
  unfold wt
  rw [← mul_prod_erase univ _ (mem_univ i), ← mul_prod_erase univ (fun v => ((m v).toNat ! : ℝ)) (mem_univ i), ← mul_assoc]
  congr 1
  · have : ((m + unit i) i).toNat = (m i).toNat + 1 := by
      simp only [Pi.add_apply, unit, Pi.single_eq_same]; omega
    rw [this, Nat.factorial_succ]
    push_cast
    congr 1
    have : ((m i).toNat : ℤ) = m i := Int.toNat_of_nonneg h
    have : (((m i).toNat : ℤ) : ℝ) = (m i : ℝ) := by rw [this]
    rw [← this, Int.cast_natCast]
  · refine prod_congr rfl fun v hv => ?_
    have : v ≠ i := ne_of_mem_erase hv
    simp [unit, this]

theorem wt_co {m : σ → ℤ} (l : Leg σ) (hm : ∀ v, 0 ≤ m v) (hm' : ∀ v, 0 ≤ (m - net l) v) :
    wt m * co l m = wt (m - net l) * co l.flip (m - net l) := by
  obtain ⟨i, u⟩ := l
  cases u
  · have e : m - net (i, false) = m + unit i := by simp [net]
    rw [e, wt_add i (hm i)]
    simp [co, Leg.flip]; ring
  · have e : m - net (i, true) = m - unit i := by simp [net]
    rw [e] at hm' ⊢
    have := wt_add i (hm' i)
    rw [sub_add_cancel] at this
    rw [this]
    simp [co, Leg.flip]; ring

/-- Several operators, one after the other. -/
def word (ws : List (Leg σ)) (f : (σ → ℤ) → ℝ) : (σ → ℤ) → ℝ := ws.foldr (fun l f => lop l f) f

/-- The adjoint operators in the opposite order. -/
def wordR (ws : List (Leg σ)) (f : (σ → ℤ) → ℝ) : (σ → ℤ) → ℝ := ws.foldl (fun f l => lop l.flip f) f

omit [Fintype σ] in
theorem wordR_smul (ws : List (Leg σ)) (c : ℝ) (f : (σ → ℤ) → ℝ) : wordR ws (c • f) = c • wordR ws f := by
  induction ws generalizing f with
  | nil => rfl
  | cons x ws ih =>
    show wordR ws (lop x.flip (c • f)) = c • wordR ws (lop x.flip f)
    rw [map_smul, ih]

theorem word_neg (ws : List (Leg σ)) {n m : σ → ℤ} (hn : ∀ v, 0 ≤ n v) {v : σ} (hm : m v < 0) : word ws (one n) m = 0 := by
  induction ws generalizing m with
  | nil =>
    show one n m = 0
    rw [one, if_neg]
    rintro rfl
    exact absurd (hn v) (not_le.2 hm)
  | cons x ws ih =>
    show lop x (word ws (one n)) m = 0
    rw [lop_apply]
    obtain ⟨i, u⟩ := x
    by_cases h : v = i
    · subst h
      cases u
      · by_cases h1 : m v = -1
        · simp [co, h1]
        · rw [ih, mul_zero]
          simp only [net, Bool.false_eq_true, if_false, Pi.sub_apply, Pi.neg_apply, unit, Pi.single_eq_same]; omega
      · rw [ih, mul_zero]
        simp only [net, if_true, Pi.sub_apply, unit, Pi.single_eq_same]; omega
    · rw [ih, mul_zero]
      cases u <;> simpa [net, unit, h] using hm

theorem lop_flip_one (x : Leg σ) (m : σ → ℤ) : lop x.flip (one m) = co x.flip (m - net x) • one (m - net x) := by
  funext p
  rw [lop_apply, Pi.smul_apply, smul_eq_mul, net_flip]
  unfold one
  by_cases h : p = m - net x
  · rw [if_pos h, if_pos (by rw [h]; abel), h]
  · rw [if_neg h, if_neg (fun e => h (by rw [← e]; abel))]; ring

theorem word_adj (ws : List (Leg σ)) {n m : σ → ℤ} (hn : ∀ v, 0 ≤ n v) (hm : ∀ v, 0 ≤ m v) :
    wt m * word ws (one n) m = wt n * wordR ws (one m) n := by
  induction ws generalizing m with
  | nil =>
    show wt m * one n m = wt n * one m n
    unfold one
    by_cases h : m = n
    · rw [h]
    · rw [if_neg h, if_neg (Ne.symm h), mul_zero, mul_zero]
  | cons x ws ih =>
    show wt m * lop x (word ws (one n)) m = wt n * wordR ws (lop x.flip (one m)) n
    rw [lop_apply, lop_flip_one, wordR_smul, Pi.smul_apply, smul_eq_mul]
    by_cases h : ∀ v, 0 ≤ (m - net x) v
    · rw [← mul_assoc, wt_co x hm h, mul_left_comm, ← ih h]; ring
    · push Not at h
      obtain ⟨v, hv⟩ := h
      rw [word_neg ws hn hv]
      obtain ⟨i, u⟩ := x
      have hmv := hm v
      have : co (Leg.flip (i, u)) (m - net (i, u)) = 0 := by
        by_cases hvi : v = i
        · subst hvi
          cases u
          · simp only [net, Bool.false_eq_true, if_false, Pi.sub_apply, Pi.neg_apply, unit, Pi.single_eq_same] at hv; omega
          · have : m v = 0 := by
              simp only [net, if_true, Pi.sub_apply, unit, Pi.single_eq_same] at hv; omega
            simp [co, Leg.flip, net, unit, this]
        · cases u <;> simp [net, unit, hvi] at hv <;> omega
      rw [this]; ring

theorem sum_four {L M : Type} [Fintype L] [AddCommMonoid M] (f : L → L → L → L → M) :
    ∑ a, ∑ b, ∑ c, ∑ d, f a b c d = ∑ p : L × L × L × L, f p.1 p.2.1 p.2.2.1 p.2.2.2 := by
  simp only [Fintype.sum_prod_type]

theorem tess_adj (C : Leg σ → Leg σ → Leg σ → Leg σ → ℝ) {n m : σ → ℤ} (hn : ∀ v, 0 ≤ n v) (hm : ∀ v, 0 ≤ m v) :
    wt m * tess lop C (one n) m = wt n * tess lop (fun x y v t => C t.flip v.flip y.flip x.flip) (one m) n := by
  rw [tess_apply, tess_apply, sum_four, sum_four, mul_sum, mul_sum]
  refine Fintype.sum_equiv ⟨fun p => (p.2.2.2.flip, p.2.2.1.flip, p.2.1.flip, p.1.flip),
    fun p => (p.2.2.2.flip, p.2.2.1.flip, p.2.1.flip, p.1.flip), fun p => by simp [flip_flip],
    fun p => by simp [flip_flip]⟩ _ _ fun p => ?_
  simp only [Equiv.coe_fn_mk, flip_flip]
  have := word_adj [p.1, p.2.1, p.2.2.1, p.2.2.2] hn hm
  rw [mul_left_comm, show lop p.1 (lop p.2.1 (lop p.2.2.1 (lop p.2.2.2 (one n)))) m =
    word [p.1, p.2.1, p.2.2.1, p.2.2.2] (one n) m from rfl, this]
  rw [mul_left_comm]
  rfl

theorem cube_adj (G G' : Leg σ → Leg σ → Leg σ → ℝ) {n m : σ → ℤ} (hn : ∀ v, 0 ≤ n v) (hm : ∀ v, 0 ≤ m v) :
    wt m * cube lop G (cube lop G' (one n)) m =
      wt n * cube lop (fun x y z => G' z.flip y.flip x.flip) (cube lop (fun x y z => G z.flip y.flip x.flip) (one m)) n := by
  have e : ∀ (G G' : Leg σ → Leg σ → Leg σ → ℝ) (n m : σ → ℤ), cube lop G (cube lop G' (one n)) m =
      ∑ p : Leg σ × Leg σ × Leg σ × Leg σ × Leg σ × Leg σ, G p.1 p.2.1 p.2.2.1 *
        (G' p.2.2.2.1 p.2.2.2.2.1 p.2.2.2.2.2 *
          word [p.1, p.2.1, p.2.2.1, p.2.2.2.1, p.2.2.2.2.1, p.2.2.2.2.2] (one n) m) := by
    intro G G' n m
    rw [cube_apply]
    have : cube lop G' (one n) = ∑ x, ∑ y, ∑ z, G' x y z • lop x (lop y (lop z (one n))) := by
      simp only [cube, LinearMap.sum_apply, LinearMap.smul_apply, Module.End.mul_apply]
    rw [this]
    simp only [map_sum, map_smul, Finset.sum_apply, Pi.smul_apply, smul_eq_mul, mul_sum]
    rw [sum6]
    rfl
  rw [e, e, mul_sum, mul_sum]
  refine Fintype.sum_equiv ⟨fun p => (p.2.2.2.2.2.flip, p.2.2.2.2.1.flip, p.2.2.2.1.flip, p.2.2.1.flip, p.2.1.flip, p.1.flip),
    fun p => (p.2.2.2.2.2.flip, p.2.2.2.2.1.flip, p.2.2.2.1.flip, p.2.2.1.flip, p.2.1.flip, p.1.flip),
    fun p => by simp [flip_flip], fun p => by simp [flip_flip]⟩ _ _ fun p => ?_
  simp only [Equiv.coe_fn_mk, flip_flip]
  have := word_adj [p.1, p.2.1, p.2.2.1, p.2.2.2.1, p.2.2.2.2.1, p.2.2.2.2.2] hn hm
  rw [mul_left_comm, mul_left_comm (wt m), this]
  have e : word [p.2.2.2.2.2.flip, p.2.2.2.2.1.flip, p.2.2.2.1.flip, p.2.2.1.flip, p.2.1.flip, p.1.flip] (one m) n =
    wordR [p.1, p.2.1, p.2.2.1, p.2.2.2.1, p.2.2.2.2.1, p.2.2.2.2.2] (one m) n := rfl
  rw [e]
  ring

theorem dia_cub (φ : σ → σ → σ → ℝ) (g : (σ → ℤ) → ℝ) (n : σ → ℤ) :
    dia g n (cub φ (one n)) = (rt ^ 3 / 6) • cube lop (leg3g φ g) (one n) := by
  rw [cub_cube, map_smul]
  congr 1
  simp only [cube, LinearMap.sum_apply, map_sum, LinearMap.smul_apply, map_smul, Module.End.mul_apply, dia_op3, smul_smul]
  rfl

theorem cub_dia (φ : σ → σ → σ → ℝ) {g : (σ → ℤ) → ℝ} (hg : ∀ s, g (-s) = -g s) (m : σ → ℤ) (f : (σ → ℤ) → ℝ) :
    cub φ (dia g m f) m = -((rt ^ 3 / 6) * cube lop (leg3g φ g) f m) := by
  rw [cub_cube, Pi.smul_apply, smul_eq_mul, cube_apply, cube_apply, ← mul_neg, ← sum_neg_distrib]
  congr 1
  refine sum_congr rfl fun x _ => ?_
  rw [← sum_neg_distrib]
  refine sum_congr rfl fun y _ => ?_
  rw [← sum_neg_distrib]
  refine sum_congr rfl fun z _ => ?_
  rw [op3_dia, hg, leg3, leg3g]
  ring

/-- The second-order matrix element read the other way. -/
theorem cub_adj {φ : σ → σ → σ → ℝ} (hφ : Sy3 φ) {g : (σ → ℤ) → ℝ} (hg : ∀ s, g (-s) = -g s) {n m : σ → ℤ}
    (hn : ∀ v, 0 ≤ n v) (hm : ∀ v, 0 ≤ m v) :
    wt n * cub φ (dia g m (cub φ (one m))) n = wt m * cub φ (dia g m (cub φ (one n))) m := by
  have s3 : ∀ i j k, φ k j i = φ i j k := fun i j k => by rw [(hφ k j i).2, (hφ k i j).1, (hφ i k j).2]
  rw [dia_cub, cub_dia φ hg, cub_cube, cub_cube, map_smul, map_smul, Pi.smul_apply, Pi.smul_apply, Pi.smul_apply]
  have := cube_adj (leg3 φ) (leg3g φ g) hm hn
  have e1 : (fun x y z : Leg σ => leg3 φ z.flip y.flip x.flip) = leg3 φ := by
    funext x y z; exact s3 _ _ _
  have e2 : (fun x y z : Leg σ => leg3g φ g z.flip y.flip x.flip) = fun x y z => -leg3g φ g x y z := by
    funext x y z
    unfold leg3g
    rw [net_flip, net_flip, net_flip, show -net z + -net y + -net x = -(net x + net y + net z) by abel, hg,
      show φ z.flip.1 y.flip.1 x.flip.1 = φ x.1 y.1 z.1 from s3 _ _ _]
    ring
  rw [e1, e2] at this
  have e3 : ∀ f, cube lop (fun x y z => -leg3g φ g x y z) f m = -cube lop (leg3g φ g) f m := by
    intro f
    simp only [cube_apply, neg_mul, sum_neg_distrib]
  rw [e3] at this
  simp only [smul_eq_mul]
  linear_combination (rt ^ 3 / 6) ^ 2 * this

theorem qua_adj {ψ : σ → σ → σ → σ → ℝ} (hψ : Sy4 ψ) {n m : σ → ℤ} (hn : ∀ v, 0 ≤ n v) (hm : ∀ v, 0 ≤ m v) :
    wt m * qua ψ (one n) m = wt n * qua ψ (one m) n := by
  have := tess_adj (fun x y v t => ψ x.1 y.1 v.1 t.1) hn hm
  have e : (fun x y v t : Leg σ => ψ t.flip.1 v.flip.1 y.flip.1 x.flip.1) = fun x y v t => ψ x.1 y.1 v.1 t.1 := by
    funext x y v t
    show ψ t.1 v.1 y.1 x.1 = _
    have s : ∀ i j k l, ψ l k j i = ψ i j k l := by
      intro i j k l
      rw [(hψ l k j i).2.2, (hψ l k i j).2.1, (hψ l i k j).1, (hψ i l k j).2.2, (hψ i l j k).2.1, (hψ i j l k).2.2]
    exact s _ _ _ _
  rw [e] at this
  rw [qua_tess, qua_tess, Pi.smul_apply, Pi.smul_apply, smul_eq_mul, smul_eq_mul]
  linear_combination (rt ^ 4 / 24) * this

/-- `Σ a_xy x y`. -/
def pairOp (a : Leg σ → Leg σ → ℝ) : Module.End ℝ ((σ → ℤ) → ℝ) := ∑ x, ∑ y, a x y • (lop x * lop y)

theorem tess_pair (a b : Leg σ → Leg σ → ℝ) (f : (σ → ℤ) → ℝ) :
    tess lop (fun x y v t => a x y * b v t) f = pairOp a (pairOp b f) := by
  have e : ∀ (a : Leg σ → Leg σ → ℝ) f, pairOp a f = ∑ x, ∑ y, a x y • lop x (lop y f) := by
    intro a f
    simp only [pairOp, LinearMap.sum_apply, LinearMap.smul_apply, Module.End.mul_apply]
  funext m
  rw [tess_apply, e a, e b]
  simp only [map_sum, map_smul, Finset.sum_apply, Pi.smul_apply, smul_eq_mul, mul_sum, mul_assoc]

theorem lop_comm_ne {x y : Leg σ} (h : x.1 ≠ y.1) : lop x * lop y = lop y * lop x := by
  have := lop_comm x y
  rw [sg, if_neg h, zero_smul] at this
  exact sub_eq_zero.1 this

theorem ang_adj (w : σ → ℝ) {ζ : σ → σ → ℝ} (hζ : ∀ k, ζ k k = 0) {n m : σ → ℤ} (hn : ∀ v, 0 ≤ n v)
    (hm : ∀ v, 0 ≤ m v) : wt m * ang w ζ (ang w ζ (one n)) m = wt n * ang w ζ (ang w ζ (one m)) n := by
  have e : pairOp (fun x y => leg2 w ζ y.flip x.flip) = -pairOp (leg2 w ζ) := by
    unfold pairOp
    rw [sum_comm, ← sum_neg_distrib]
    refine sum_congr rfl fun x _ => ?_
    rw [← sum_neg_distrib]
    refine sum_congr rfl fun y _ => ?_
    by_cases h : x.1 = y.1
    · have h0 : ζ x.1 y.1 = 0 := by rw [h]; exact hζ _
      simp [leg2, Leg.flip, h0]
    · have : leg2 w ζ x.flip y.flip = -leg2 w ζ x y := by
        obtain ⟨j, u⟩ := y
        cases u <;> simp [leg2, Leg.flip]
      rw [lop_comm_ne (Ne.symm h)]
      show leg2 w ζ x.flip y.flip • (lop x * lop y) = _
      rw [this]
      exact neg_smul (leg2 w ζ x y) (lop x * lop y)
  have := tess_adj (fun x y v t => leg2 w ζ x y * leg2 w ζ v t) hn hm
  have e' : tess lop (fun x y v t => leg2 w ζ t.flip v.flip * leg2 w ζ y.flip x.flip) (one m) =
      tess lop (fun x y v t => leg2 w ζ x y * leg2 w ζ v t) (one m) := by
    have : (fun x y v t : Leg σ => leg2 w ζ t.flip v.flip * leg2 w ζ y.flip x.flip) =
        fun x y v t => leg2 w ζ y.flip x.flip * leg2 w ζ t.flip v.flip := by funext x y v t; ring
    rw [this, tess_pair (fun x y => leg2 w ζ y.flip x.flip) fun v t => leg2 w ζ t.flip v.flip, tess_pair, e]
    simp
  rw [e'] at this
  rw [ang_tess, ang_tess, Pi.smul_apply, Pi.smul_apply, smul_eq_mul, smul_eq_mul]
  linear_combination rt ^ 4 * this

end Verif.Osc
