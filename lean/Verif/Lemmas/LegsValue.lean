import Verif.Lemmas.LegsEval
import Mathlib.Tactic.FieldSimp

/-!
# The couplings of two states that differ by at most four quanta

Helpers for C108.
-/

namespace Verif.Osc

set_option linter.unusedSimpArgs false

open Finset

variable {σ : Type} [Fintype σ] [DecidableEq σ]

theorem pairF_left {φ : σ → σ → σ → ℝ} (hφ : Sy3 φ) (g : (σ → ℤ) → ℝ) (x y v t : Leg σ) :
    pairF φ g x y v t = pairF φ g y x v t := by
  unfold pairF
  refine sum_congr rfl fun k _ => ?_
  rw [(hφ k x.1 y.1).2, add_comm (net x)]

theorem pairF_right {φ : σ → σ → σ → ℝ} (hφ : Sy3 φ) (g : (σ → ℤ) → ℝ) (x y v t : Leg σ) :
    pairF φ g x y v t = pairF φ g x y t v := by
  unfold pairF
  refine sum_congr rfl fun k _ => ?_
  rw [(hφ k v.1 t.1).2]

/-- The quartic potential. -/
def vq (ψ : σ → σ → σ → σ → ℝ) (x y v t : Leg σ) : ℝ := ψ x.1 y.1 v.1 t.1

/-- The square of the angular momentum. -/
noncomputable def vc (w : σ → ℝ) (ζ : σ → σ → ℝ) (x y v t : Leg σ) : ℝ := leg2 w ζ x y * leg2 w ζ v t

/-- The cubic potential, twice. -/
def vp (φ : σ → σ → σ → ℝ) (g : (σ → ℤ) → ℝ) (x y v t : Leg σ) : ℝ :=
  pairF φ g x y v t + pairF φ g y v x t + pairF φ g v t x y


/-! ## Values of the terms -/

theorem aabb_q {ψ : σ → σ → σ → σ → ℝ} (hψ : Sy4 ψ) {n m : σ → ℤ} {i j : σ} (hij : i ≠ j) (h : unit i + unit i - unit j - unit j = m - n) :
    six (vq ψ) n m i i j j = (((m j : ℝ) + 1) * ((m j : ℝ) + 2)) * (6 * ψ i i j j) := by
  have s1 : ψ i j i j = ψ i i j j := (hψ i j i j).2.1
  have s2 : ψ i j j i = ψ i i j j := ((hψ i j j i).2.2).trans ((hψ i j i j).2.1)
  have s3 : ψ j i i j = ψ i i j j := ((hψ j i i j).1).trans ((hψ i j i j).2.1)
  have s4 : ψ j i j i = ψ i i j j := ((hψ j i j i).1).trans (((hψ i j j i).2.2).trans ((hψ i j i j).2.1))
  have s5 : ψ j j i i = ψ i i j j := ((hψ j j i i).2.1).trans (((hψ j i j i).2.2).trans (((hψ j i i j).1).trans ((hψ i j i j).2.1)))
  rw [six_value (vq ψ) (show unit i + unit i - unit j - unit j = m - n by first | exact h | (rw [← h]; abel))]
  simp only [vq, s1, s2, s3, s4, s5, unit_at, hij, hij.symm, if_true, if_false, Int.cast_zero, Int.cast_one]
  ring

theorem aabb_p {φ : σ → σ → σ → ℝ} (hφ : Sy3 φ) (g : (σ → ℤ) → ℝ) {n m : σ → ℤ} {i j : σ} (hij : i ≠ j) (h : unit i + unit i - unit j - unit j = m - n) :
    six (vp φ g) n m i i j j = (((m j : ℝ) + 1) * ((m j : ℝ) + 2)) * (3 * (pairF φ g (i, true) (i, true) (j, false) (j, false) + pairF φ g (j, false) (j, false) (i, true) (i, true) + 4 * pairF φ g (i, true) (j, false) (i, true) (j, false))) := by
  have s1 : pairF φ g (j, false) (i, true) (i, true) (j, false) = pairF φ g (i, true) (j, false) (i, true) (j, false) := pairF_left hφ g _ _ _ _
  have s2 : pairF φ g (i, true) (j, false) (j, false) (i, true) = pairF φ g (i, true) (j, false) (i, true) (j, false) := pairF_right hφ g _ _ _ _
  have s3 : pairF φ g (j, false) (i, true) (j, false) (i, true) = pairF φ g (i, true) (j, false) (i, true) (j, false) := (pairF_left hφ g _ _ _ _).trans (pairF_right hφ g _ _ _ _)
  rw [six_value (vp φ g) (show unit i + unit i - unit j - unit j = m - n by first | exact h | (rw [← h]; abel))]
  simp only [vp, s1, s2, s3, unit_at, hij, hij.symm, if_true, if_false, Int.cast_zero, Int.cast_one]
  ring

theorem aabb_c {w : σ → ℝ} (hw : ∀ i, 0 < w i) {ζ : σ → σ → ℝ} (hζ : ∀ i j, ζ i j = -ζ j i) {n m : σ → ℤ} {i j : σ} (hij : i ≠ j) (h : unit i + unit i - unit j - unit j = m - n) :
    six (vc w ζ) n m i i j j = (((m j : ℝ) + 1) * ((m j : ℝ) + 2)) * (ζ i j ^ 2 * (w i + w j) ^ 2 / (w i * w j)) := by
  have rij : Real.sqrt (w i / w j) = Real.sqrt (w i) / Real.sqrt (w j) := Real.sqrt_div (hw i).le _
  have rji : Real.sqrt (w j / w i) = Real.sqrt (w j) / Real.sqrt (w i) := Real.sqrt_div (hw j).le _
  have zi : ζ i i = 0 := by have := hζ i i; linarith
  have zj : ζ j j = 0 := by have := hζ j j; linarith
  have pi : Real.sqrt (w i) ≠ 0 := (Real.sqrt_pos.2 (hw i)).ne'
  have ei : Real.sqrt (w i) ^ 2 = w i := Real.sq_sqrt (hw i).le
  have pj : Real.sqrt (w j) ≠ 0 := (Real.sqrt_pos.2 (hw j)).ne'
  have ej : Real.sqrt (w j) ^ 2 = w j := Real.sq_sqrt (hw j).le
  rw [six_value (vc w ζ) (show unit i + unit i - unit j - unit j = m - n by first | exact h | (rw [← h]; abel))]
  simp only [vc, leg2, zi, zj, hζ j i, rij, rji, unit_at, hij, hij.symm, if_true, if_false, Bool.false_eq_true, zero_mul, mul_zero, add_zero, zero_add, Int.cast_zero, Int.cast_one]
  generalize Real.sqrt (w i) = rI at *
  generalize Real.sqrt (w j) = rJ at *
  rw [← ei, ← ej]
  field_simp
  ring

theorem aabc_q {ψ : σ → σ → σ → σ → ℝ} (hψ : Sy4 ψ) {n m : σ → ℤ} {i j k : σ} (hij : i ≠ j) (hik : i ≠ k) (hjk : j ≠ k) (h : unit i + unit i - unit j - unit k = m - n) :
    six (vq ψ) n m i i j k + six (vq ψ) n m i i k j = (((m j : ℝ) + 1) * ((m k : ℝ) + 1)) * (12 * ψ i i j k) := by
  have s1 : ψ i j i k = ψ i i j k := (hψ i j i k).2.1
  have s2 : ψ i j k i = ψ i i j k := ((hψ i j k i).2.2).trans ((hψ i j i k).2.1)
  have s3 : ψ j i i k = ψ i i j k := ((hψ j i i k).1).trans ((hψ i j i k).2.1)
  have s4 : ψ j i k i = ψ i i j k := ((hψ j i k i).1).trans (((hψ i j k i).2.2).trans ((hψ i j i k).2.1))
  have s5 : ψ j k i i = ψ i i j k := ((hψ j k i i).2.1).trans (((hψ j i k i).2.2).trans (((hψ j i i k).1).trans ((hψ i j i k).2.1)))
  have s6 : ψ i i k j = ψ i i j k := (hψ i i k j).2.2
  have s7 : ψ i k i j = ψ i i j k := ((hψ i k i j).2.1).trans ((hψ i i k j).2.2)
  have s8 : ψ i k j i = ψ i i j k := ((hψ i k j i).2.1).trans (((hψ i j k i).2.2).trans ((hψ i j i k).2.1))
  have s9 : ψ k i i j = ψ i i j k := ((hψ k i i j).1).trans (((hψ i k i j).2.1).trans ((hψ i i k j).2.2))
  have s10 : ψ k i j i = ψ i i j k := ((hψ k i j i).1).trans (((hψ i k j i).2.1).trans (((hψ i j k i).2.2).trans ((hψ i j i k).2.1)))
  have s11 : ψ k j i i = ψ i i j k := ((hψ k j i i).1).trans (((hψ j k i i).2.1).trans (((hψ j i k i).2.2).trans (((hψ j i i k).1).trans ((hψ i j i k).2.1))))
  rw [six_value (vq ψ) (show unit i + unit i - unit j - unit k = m - n by first | exact h | (rw [← h]; abel)), six_value (vq ψ) (show unit i + unit i - unit k - unit j = m - n by first | exact h | (rw [← h]; abel))]
  simp only [vq, s1, s2, s3, s4, s5, s6, s7, s8, s9, s10, s11, unit_at, hij, hij.symm, hik, hik.symm, hjk, hjk.symm, if_true, if_false, Int.cast_zero, Int.cast_one]
  ring

theorem aabc_p {φ : σ → σ → σ → ℝ} (hφ : Sy3 φ) (g : (σ → ℤ) → ℝ) {n m : σ → ℤ} {i j k : σ} (hij : i ≠ j) (hik : i ≠ k) (hjk : j ≠ k) (h : unit i + unit i - unit j - unit k = m - n) :
    six (vp φ g) n m i i j k + six (vp φ g) n m i i k j = (((m j : ℝ) + 1) * ((m k : ℝ) + 1)) * (3 * (2 * pairF φ g (i, true) (i, true) (j, false) (k, false) + 2 * pairF φ g (j, false) (k, false) (i, true) (i, true) + 4 * pairF φ g (i, true) (j, false) (i, true) (k, false) + 4 * pairF φ g (i, true) (k, false) (i, true) (j, false))) := by
  have s1 : pairF φ g (j, false) (i, true) (i, true) (k, false) = pairF φ g (i, true) (j, false) (i, true) (k, false) := pairF_left hφ g _ _ _ _
  have s2 : pairF φ g (i, true) (j, false) (k, false) (i, true) = pairF φ g (i, true) (j, false) (i, true) (k, false) := pairF_right hφ g _ _ _ _
  have s3 : pairF φ g (k, false) (i, true) (i, true) (j, false) = pairF φ g (i, true) (k, false) (i, true) (j, false) := pairF_left hφ g _ _ _ _
  have s4 : pairF φ g (i, true) (k, false) (j, false) (i, true) = pairF φ g (i, true) (k, false) (i, true) (j, false) := pairF_right hφ g _ _ _ _
  have s5 : pairF φ g (j, false) (i, true) (k, false) (i, true) = pairF φ g (i, true) (j, false) (i, true) (k, false) := (pairF_left hφ g _ _ _ _).trans (pairF_right hφ g _ _ _ _)
  have s6 : pairF φ g (k, false) (i, true) (j, false) (i, true) = pairF φ g (i, true) (k, false) (i, true) (j, false) := (pairF_left hφ g _ _ _ _).trans (pairF_right hφ g _ _ _ _)
  have s7 : pairF φ g (i, true) (i, true) (k, false) (j, false) = pairF φ g (i, true) (i, true) (j, false) (k, false) := pairF_right hφ g _ _ _ _
  have s8 : pairF φ g (k, false) (j, false) (i, true) (i, true) = pairF φ g (j, false) (k, false) (i, true) (i, true) := pairF_left hφ g _ _ _ _
  rw [six_value (vp φ g) (show unit i + unit i - unit j - unit k = m - n by first | exact h | (rw [← h]; abel)), six_value (vp φ g) (show unit i + unit i - unit k - unit j = m - n by first | exact h | (rw [← h]; abel))]
  simp only [vp, s1, s2, s3, s4, s5, s6, s7, s8, unit_at, hij, hij.symm, hik, hik.symm, hjk, hjk.symm, if_true, if_false, Int.cast_zero, Int.cast_one]
  ring

theorem aabc_c {w : σ → ℝ} (hw : ∀ i, 0 < w i) {ζ : σ → σ → ℝ} (hζ : ∀ i j, ζ i j = -ζ j i) {n m : σ → ℤ} {i j k : σ} (hij : i ≠ j) (hik : i ≠ k) (hjk : j ≠ k) (h : unit i + unit i - unit j - unit k = m - n) :
    six (vc w ζ) n m i i j k + six (vc w ζ) n m i i k j = (((m j : ℝ) + 1) * ((m k : ℝ) + 1)) * (2 * (ζ i j * ζ i k) * (w i + w j) * (w i + w k) / (w i * Real.sqrt (w j * w k))) := by
  have rij : Real.sqrt (w i / w j) = Real.sqrt (w i) / Real.sqrt (w j) := Real.sqrt_div (hw i).le _
  have rik : Real.sqrt (w i / w k) = Real.sqrt (w i) / Real.sqrt (w k) := Real.sqrt_div (hw i).le _
  have rji : Real.sqrt (w j / w i) = Real.sqrt (w j) / Real.sqrt (w i) := Real.sqrt_div (hw j).le _
  have rjk : Real.sqrt (w j / w k) = Real.sqrt (w j) / Real.sqrt (w k) := Real.sqrt_div (hw j).le _
  have rki : Real.sqrt (w k / w i) = Real.sqrt (w k) / Real.sqrt (w i) := Real.sqrt_div (hw k).le _
  have rkj : Real.sqrt (w k / w j) = Real.sqrt (w k) / Real.sqrt (w j) := Real.sqrt_div (hw k).le _
  have zi : ζ i i = 0 := by have := hζ i i; linarith
  have zj : ζ j j = 0 := by have := hζ j j; linarith
  have zk : ζ k k = 0 := by have := hζ k k; linarith
  have pi : Real.sqrt (w i) ≠ 0 := (Real.sqrt_pos.2 (hw i)).ne'
  have ei : Real.sqrt (w i) ^ 2 = w i := Real.sq_sqrt (hw i).le
  have pj : Real.sqrt (w j) ≠ 0 := (Real.sqrt_pos.2 (hw j)).ne'
  have ej : Real.sqrt (w j) ^ 2 = w j := Real.sq_sqrt (hw j).le
  have pk : Real.sqrt (w k) ≠ 0 := (Real.sqrt_pos.2 (hw k)).ne'
  have ek : Real.sqrt (w k) ^ 2 = w k := Real.sq_sqrt (hw k).le
  rw [six_value (vc w ζ) (show unit i + unit i - unit j - unit k = m - n by first | exact h | (rw [← h]; abel)), six_value (vc w ζ) (show unit i + unit i - unit k - unit j = m - n by first | exact h | (rw [← h]; abel))]
  simp only [vc, leg2, zi, zj, zk, hζ j i, hζ k i, hζ k j, rij, rik, rji, rjk, rki, rkj, unit_at, hij, hij.symm, hik, hik.symm, hjk, hjk.symm, if_true, if_false, Bool.false_eq_true, zero_mul, mul_zero, add_zero, zero_add, Int.cast_zero, Int.cast_one]
  rw [Real.sqrt_mul (hw j).le]
  generalize Real.sqrt (w i) = rI at *
  generalize Real.sqrt (w j) = rJ at *
  generalize Real.sqrt (w k) = rK at *
  rw [← ei, ← ej, ← ek]
  field_simp
  ring

theorem loop_i_q {ψ : σ → σ → σ → σ → ℝ} (hψ : Sy4 ψ) {n m : σ → ℤ} {i j : σ} (hij : i ≠ j) (h : unit i - unit j = m - n) :
    six (vq ψ) n m i i j i + six (vq ψ) n m i i i j = (((m j : ℝ) + 1) * (m i : ℝ)) * (12 * ψ i i i j) := by
  have s1 : ψ i i j i = ψ i i i j := (hψ i i j i).2.2
  have s2 : ψ i j i i = ψ i i i j := ((hψ i j i i).2.1).trans ((hψ i i j i).2.2)
  have s3 : ψ j i i i = ψ i i i j := ((hψ j i i i).1).trans (((hψ i j i i).2.1).trans ((hψ i i j i).2.2))
  rw [six_value (vq ψ) (show unit i + unit i - unit j - unit i = m - n by first | exact h | (rw [← h]; abel)), six_value (vq ψ) (show unit i + unit i - unit i - unit j = m - n by first | exact h | (rw [← h]; abel))]
  simp only [vq, s1, s2, s3, unit_at, hij, hij.symm, if_true, if_false, Int.cast_zero, Int.cast_one]
  ring

theorem loop_i_p {φ : σ → σ → σ → ℝ} (hφ : Sy3 φ) (g : (σ → ℤ) → ℝ) {n m : σ → ℤ} {i j : σ} (hij : i ≠ j) (h : unit i - unit j = m - n) :
    six (vp φ g) n m i i j i + six (vp φ g) n m i i i j = (((m j : ℝ) + 1) * (m i : ℝ)) * (3 * (2 * pairF φ g (i, true) (i, true) (i, false) (j, false) + 2 * pairF φ g (i, false) (j, false) (i, true) (i, true) + 4 * pairF φ g (i, true) (i, false) (i, true) (j, false) + 4 * pairF φ g (i, true) (j, false) (i, true) (i, false))) := by
  have s1 : pairF φ g (i, true) (i, true) (j, false) (i, false) = pairF φ g (i, true) (i, true) (i, false) (j, false) := pairF_right hφ g _ _ _ _
  have s2 : pairF φ g (j, false) (i, false) (i, true) (i, true) = pairF φ g (i, false) (j, false) (i, true) (i, true) := pairF_left hφ g _ _ _ _
  have s3 : pairF φ g (j, false) (i, true) (i, true) (i, false) = pairF φ g (i, true) (j, false) (i, true) (i, false) := pairF_left hφ g _ _ _ _
  have s4 : pairF φ g (i, true) (j, false) (i, false) (i, true) = pairF φ g (i, true) (j, false) (i, true) (i, false) := pairF_right hφ g _ _ _ _
  have s5 : pairF φ g (i, false) (i, true) (i, true) (j, false) = pairF φ g (i, true) (i, false) (i, true) (j, false) := pairF_left hφ g _ _ _ _
  have s6 : pairF φ g (i, true) (i, false) (j, false) (i, true) = pairF φ g (i, true) (i, false) (i, true) (j, false) := pairF_right hφ g _ _ _ _
  have s7 : pairF φ g (j, false) (i, true) (i, false) (i, true) = pairF φ g (i, true) (j, false) (i, true) (i, false) := (pairF_left hφ g _ _ _ _).trans (pairF_right hφ g _ _ _ _)
  have s8 : pairF φ g (i, false) (i, true) (j, false) (i, true) = pairF φ g (i, true) (i, false) (i, true) (j, false) := (pairF_left hφ g _ _ _ _).trans (pairF_right hφ g _ _ _ _)
  rw [six_value (vp φ g) (show unit i + unit i - unit j - unit i = m - n by first | exact h | (rw [← h]; abel)), six_value (vp φ g) (show unit i + unit i - unit i - unit j = m - n by first | exact h | (rw [← h]; abel))]
  simp only [vp, s1, s2, s3, s4, s5, s6, s7, s8, unit_at, hij, hij.symm, if_true, if_false, Int.cast_zero, Int.cast_one]
  ring

theorem loop_i_c {w : σ → ℝ} (hw : ∀ i, 0 < w i) {ζ : σ → σ → ℝ} (hζ : ∀ i j, ζ i j = -ζ j i) {n m : σ → ℤ} {i j : σ} (hij : i ≠ j) (h : unit i - unit j = m - n) :
    six (vc w ζ) n m i i j i + six (vc w ζ) n m i i i j = (((m j : ℝ) + 1) * (m i : ℝ)) * (0) := by
  have rij : Real.sqrt (w i / w j) = Real.sqrt (w i) / Real.sqrt (w j) := Real.sqrt_div (hw i).le _
  have rji : Real.sqrt (w j / w i) = Real.sqrt (w j) / Real.sqrt (w i) := Real.sqrt_div (hw j).le _
  have zi : ζ i i = 0 := by have := hζ i i; linarith
  have zj : ζ j j = 0 := by have := hζ j j; linarith
  have pi : Real.sqrt (w i) ≠ 0 := (Real.sqrt_pos.2 (hw i)).ne'
  have ei : Real.sqrt (w i) ^ 2 = w i := Real.sq_sqrt (hw i).le
  have pj : Real.sqrt (w j) ≠ 0 := (Real.sqrt_pos.2 (hw j)).ne'
  have ej : Real.sqrt (w j) ^ 2 = w j := Real.sq_sqrt (hw j).le
  rw [six_value (vc w ζ) (show unit i + unit i - unit j - unit i = m - n by first | exact h | (rw [← h]; abel)), six_value (vc w ζ) (show unit i + unit i - unit i - unit j = m - n by first | exact h | (rw [← h]; abel))]
  simp only [vc, leg2, zi, zj, hζ j i, rij, rji, unit_at, hij, hij.symm, if_true, if_false, Bool.false_eq_true, zero_mul, mul_zero, add_zero, zero_add, Int.cast_zero, Int.cast_one]

theorem loop_j_q {ψ : σ → σ → σ → σ → ℝ} (hψ : Sy4 ψ) {n m : σ → ℤ} {i j : σ} (hij : i ≠ j) (h : unit i - unit j = m - n) :
    six (vq ψ) n m i j j j + six (vq ψ) n m j i j j = (((m j : ℝ) + 1) * ((m j : ℝ) + 1)) * (12 * ψ j j j i) := by
  have s1 : ψ i j j j = ψ j j j i := ((hψ i j j j).1).trans (((hψ j i j j).2.1).trans ((hψ j j i j).2.2))
  have s2 : ψ j i j j = ψ j j j i := ((hψ j i j j).2.1).trans ((hψ j j i j).2.2)
  have s3 : ψ j j i j = ψ j j j i := (hψ j j i j).2.2
  rw [six_value (vq ψ) (show unit i + unit j - unit j - unit j = m - n by first | exact h | (rw [← h]; abel)), six_value (vq ψ) (show unit j + unit i - unit j - unit j = m - n by first | exact h | (rw [← h]; abel))]
  simp only [vq, s1, s2, s3, unit_at, hij, hij.symm, if_true, if_false, Int.cast_zero, Int.cast_one]
  ring

theorem loop_j_p {φ : σ → σ → σ → ℝ} (hφ : Sy3 φ) (g : (σ → ℤ) → ℝ) {n m : σ → ℤ} {i j : σ} (hij : i ≠ j) (h : unit i - unit j = m - n) :
    six (vp φ g) n m i j j j + six (vp φ g) n m j i j j = (((m j : ℝ) + 1) * ((m j : ℝ) + 1)) * (3 * (2 * pairF φ g (j, false) (j, false) (i, true) (j, true) + 2 * pairF φ g (i, true) (j, true) (j, false) (j, false) + 4 * pairF φ g (j, true) (j, false) (i, true) (j, false) + 4 * pairF φ g (i, true) (j, false) (j, true) (j, false))) := by
  have s1 : pairF φ g (j, false) (j, true) (i, true) (j, false) = pairF φ g (j, true) (j, false) (i, true) (j, false) := pairF_left hφ g _ _ _ _
  have s2 : pairF φ g (i, true) (j, false) (j, false) (j, true) = pairF φ g (i, true) (j, false) (j, true) (j, false) := pairF_right hφ g _ _ _ _
  have s3 : pairF φ g (j, false) (i, true) (j, true) (j, false) = pairF φ g (i, true) (j, false) (j, true) (j, false) := pairF_left hφ g _ _ _ _
  have s4 : pairF φ g (j, true) (j, false) (j, false) (i, true) = pairF φ g (j, true) (j, false) (i, true) (j, false) := pairF_right hφ g _ _ _ _
  have s5 : pairF φ g (j, false) (i, true) (j, false) (j, true) = pairF φ g (i, true) (j, false) (j, true) (j, false) := (pairF_left hφ g _ _ _ _).trans (pairF_right hφ g _ _ _ _)
  have s6 : pairF φ g (j, false) (j, true) (j, false) (i, true) = pairF φ g (j, true) (j, false) (i, true) (j, false) := (pairF_left hφ g _ _ _ _).trans (pairF_right hφ g _ _ _ _)
  have s7 : pairF φ g (j, true) (i, true) (j, false) (j, false) = pairF φ g (i, true) (j, true) (j, false) (j, false) := pairF_left hφ g _ _ _ _
  have s8 : pairF φ g (j, false) (j, false) (j, true) (i, true) = pairF φ g (j, false) (j, false) (i, true) (j, true) := pairF_right hφ g _ _ _ _
  rw [six_value (vp φ g) (show unit i + unit j - unit j - unit j = m - n by first | exact h | (rw [← h]; abel)), six_value (vp φ g) (show unit j + unit i - unit j - unit j = m - n by first | exact h | (rw [← h]; abel))]
  simp only [vp, s1, s2, s3, s4, s5, s6, s7, s8, unit_at, hij, hij.symm, if_true, if_false, Int.cast_zero, Int.cast_one]
  ring

theorem loop_j_c {w : σ → ℝ} (hw : ∀ i, 0 < w i) {ζ : σ → σ → ℝ} (hζ : ∀ i j, ζ i j = -ζ j i) {n m : σ → ℤ} {i j : σ} (hij : i ≠ j) (h : unit i - unit j = m - n) :
    six (vc w ζ) n m i j j j + six (vc w ζ) n m j i j j = (((m j : ℝ) + 1) * ((m j : ℝ) + 1)) * (0) := by
  have rij : Real.sqrt (w i / w j) = Real.sqrt (w i) / Real.sqrt (w j) := Real.sqrt_div (hw i).le _
  have rji : Real.sqrt (w j / w i) = Real.sqrt (w j) / Real.sqrt (w i) := Real.sqrt_div (hw j).le _
  have zi : ζ i i = 0 := by have := hζ i i; linarith
  have zj : ζ j j = 0 := by have := hζ j j; linarith
  have pi : Real.sqrt (w i) ≠ 0 := (Real.sqrt_pos.2 (hw i)).ne'
  have ei : Real.sqrt (w i) ^ 2 = w i := Real.sq_sqrt (hw i).le
  have pj : Real.sqrt (w j) ≠ 0 := (Real.sqrt_pos.2 (hw j)).ne'
  have ej : Real.sqrt (w j) ^ 2 = w j := Real.sq_sqrt (hw j).le
  rw [six_value (vc w ζ) (show unit i + unit j - unit j - unit j = m - n by first | exact h | (rw [← h]; abel)), six_value (vc w ζ) (show unit j + unit i - unit j - unit j = m - n by first | exact h | (rw [← h]; abel))]
  simp only [vc, leg2, zi, zj, hζ j i, rij, rji, unit_at, hij, hij.symm, if_true, if_false, Bool.false_eq_true, zero_mul, mul_zero, add_zero, zero_add, Int.cast_zero, Int.cast_one]

theorem loop_k_q {ψ : σ → σ → σ → σ → ℝ} (hψ : Sy4 ψ) {n m : σ → ℤ} {i j k : σ} (hij : i ≠ j) (hik : i ≠ k) (hjk : j ≠ k) (h : unit i - unit j = m - n) :
    six (vq ψ) n m i k j k + six (vq ψ) n m i k k j + six (vq ψ) n m k i j k + six (vq ψ) n m k i k j = (((m j : ℝ) + 1) * ((m k : ℝ) + 1 / 2)) * (24 * ψ i j k k) := by
  have s1 : ψ i k j k = ψ i j k k := (hψ i k j k).2.1
  have s2 : ψ j i k k = ψ i j k k := (hψ j i k k).1
  have s3 : ψ j k i k = ψ i j k k := ((hψ j k i k).2.1).trans ((hψ j i k k).1)
  have s4 : ψ i k k j = ψ i j k k := ((hψ i k k j).2.2).trans ((hψ i k j k).2.1)
  have s5 : ψ k i k j = ψ i j k k := ((hψ k i k j).1).trans (((hψ i k k j).2.2).trans ((hψ i k j k).2.1))
  have s6 : ψ k i j k = ψ i j k k := ((hψ k i j k).1).trans ((hψ i k j k).2.1)
  have s7 : ψ k j i k = ψ i j k k := ((hψ k j i k).1).trans (((hψ j k i k).2.1).trans ((hψ j i k k).1))
  have s8 : ψ k j k i = ψ i j k k := ((hψ k j k i).1).trans (((hψ j k k i).2.2).trans (((hψ j k i k).2.1).trans ((hψ j i k k).1)))
  have s9 : ψ j k k i = ψ i j k k := ((hψ j k k i).2.2).trans (((hψ j k i k).2.1).trans ((hψ j i k k).1))
  have s10 : ψ k k i j = ψ i j k k := ((hψ k k i j).2.1).trans (((hψ k i k j).2.2).trans (((hψ k i j k).1).trans ((hψ i k j k).2.1)))
  have s11 : ψ k k j i = ψ i j k k := ((hψ k k j i).2.1).trans (((hψ k j k i).2.2).trans (((hψ k j i k).1).trans (((hψ j k i k).2.1).trans ((hψ j i k k).1))))
  rw [six_value (vq ψ) (show unit i + unit k - unit j - unit k = m - n by first | exact h | (rw [← h]; abel)), six_value (vq ψ) (show unit i + unit k - unit k - unit j = m - n by first | exact h | (rw [← h]; abel)), six_value (vq ψ) (show unit k + unit i - unit j - unit k = m - n by first | exact h | (rw [← h]; abel)), six_value (vq ψ) (show unit k + unit i - unit k - unit j = m - n by first | exact h | (rw [← h]; abel))]
  simp only [vq, s1, s2, s3, s4, s5, s6, s7, s8, s9, s10, s11, unit_at, hij, hij.symm, hik, hik.symm, hjk, hjk.symm, if_true, if_false, Int.cast_zero, Int.cast_one]
  ring

theorem loop_k_p {φ : σ → σ → σ → ℝ} (hφ : Sy3 φ) (g : (σ → ℤ) → ℝ) {n m : σ → ℤ} {i j k : σ} (hij : i ≠ j) (hik : i ≠ k) (hjk : j ≠ k) (h : unit i - unit j = m - n) :
    six (vp φ g) n m i k j k + six (vp φ g) n m i k k j + six (vp φ g) n m k i j k + six (vp φ g) n m k i k j = (((m j : ℝ) + 1) * ((m k : ℝ) + 1 / 2)) * (12 * (pairF φ g (i, true) (j, false) (k, true) (k, false) + pairF φ g (k, true) (k, false) (i, true) (j, false) + pairF φ g (i, true) (k, true) (j, false) (k, false) + pairF φ g (j, false) (k, false) (i, true) (k, true) + pairF φ g (i, true) (k, false) (j, false) (k, true) + pairF φ g (j, false) (k, true) (i, true) (k, false))) := by
  have s1 : pairF φ g (k, true) (j, false) (i, true) (k, false) = pairF φ g (j, false) (k, true) (i, true) (k, false) := pairF_left hφ g _ _ _ _
  have s2 : pairF φ g (i, true) (j, false) (k, false) (k, true) = pairF φ g (i, true) (j, false) (k, true) (k, false) := pairF_right hφ g _ _ _ _
  have s3 : pairF φ g (k, false) (k, true) (i, true) (j, false) = pairF φ g (k, true) (k, false) (i, true) (j, false) := pairF_left hφ g _ _ _ _
  have s4 : pairF φ g (j, false) (i, true) (k, true) (k, false) = pairF φ g (i, true) (j, false) (k, true) (k, false) := pairF_left hφ g _ _ _ _
  have s5 : pairF φ g (k, true) (k, false) (j, false) (i, true) = pairF φ g (k, true) (k, false) (i, true) (j, false) := pairF_right hφ g _ _ _ _
  have s6 : pairF φ g (j, false) (i, true) (k, false) (k, true) = pairF φ g (i, true) (j, false) (k, true) (k, false) := (pairF_left hφ g _ _ _ _).trans (pairF_right hφ g _ _ _ _)
  have s7 : pairF φ g (k, false) (k, true) (j, false) (i, true) = pairF φ g (k, true) (k, false) (i, true) (j, false) := (pairF_left hφ g _ _ _ _).trans (pairF_right hφ g _ _ _ _)
  have s8 : pairF φ g (k, false) (i, true) (j, false) (k, true) = pairF φ g (i, true) (k, false) (j, false) (k, true) := pairF_left hφ g _ _ _ _
  have s9 : pairF φ g (i, true) (k, true) (k, false) (j, false) = pairF φ g (i, true) (k, true) (j, false) (k, false) := pairF_right hφ g _ _ _ _
  have s10 : pairF φ g (k, false) (j, false) (i, true) (k, true) = pairF φ g (j, false) (k, false) (i, true) (k, true) := pairF_left hφ g _ _ _ _
  have s11 : pairF φ g (i, true) (k, false) (k, true) (j, false) = pairF φ g (i, true) (k, false) (j, false) (k, true) := pairF_right hφ g _ _ _ _
  have s12 : pairF φ g (k, false) (i, true) (k, true) (j, false) = pairF φ g (i, true) (k, false) (j, false) (k, true) := (pairF_left hφ g _ _ _ _).trans (pairF_right hφ g _ _ _ _)
  have s13 : pairF φ g (k, true) (j, false) (k, false) (i, true) = pairF φ g (j, false) (k, true) (i, true) (k, false) := (pairF_left hφ g _ _ _ _).trans (pairF_right hφ g _ _ _ _)
  have s14 : pairF φ g (j, false) (k, true) (k, false) (i, true) = pairF φ g (j, false) (k, true) (i, true) (k, false) := pairF_right hφ g _ _ _ _
  have s15 : pairF φ g (k, true) (i, true) (j, false) (k, false) = pairF φ g (i, true) (k, true) (j, false) (k, false) := pairF_left hφ g _ _ _ _
  have s16 : pairF φ g (j, false) (k, false) (k, true) (i, true) = pairF φ g (j, false) (k, false) (i, true) (k, true) := pairF_right hφ g _ _ _ _
  have s17 : pairF φ g (k, true) (i, true) (k, false) (j, false) = pairF φ g (i, true) (k, true) (j, false) (k, false) := (pairF_left hφ g _ _ _ _).trans (pairF_right hφ g _ _ _ _)
  have s18 : pairF φ g (k, false) (j, false) (k, true) (i, true) = pairF φ g (j, false) (k, false) (i, true) (k, true) := (pairF_left hφ g _ _ _ _).trans (pairF_right hφ g _ _ _ _)
  rw [six_value (vp φ g) (show unit i + unit k - unit j - unit k = m - n by first | exact h | (rw [← h]; abel)), six_value (vp φ g) (show unit i + unit k - unit k - unit j = m - n by first | exact h | (rw [← h]; abel)), six_value (vp φ g) (show unit k + unit i - unit j - unit k = m - n by first | exact h | (rw [← h]; abel)), six_value (vp φ g) (show unit k + unit i - unit k - unit j = m - n by first | exact h | (rw [← h]; abel))]
  simp only [vp, s1, s2, s3, s4, s5, s6, s7, s8, s9, s10, s11, s12, s13, s14, s15, s16, s17, s18, unit_at, hij, hij.symm, hik, hik.symm, hjk, hjk.symm, if_true, if_false, Int.cast_zero, Int.cast_one]
  ring

theorem loop_k_c {w : σ → ℝ} (hw : ∀ i, 0 < w i) {ζ : σ → σ → ℝ} (hζ : ∀ i j, ζ i j = -ζ j i) {n m : σ → ℤ} {i j k : σ} (hij : i ≠ j) (hik : i ≠ k) (hjk : j ≠ k) (h : unit i - unit j = m - n) :
    six (vc w ζ) n m i k j k + six (vc w ζ) n m i k k j + six (vc w ζ) n m k i j k + six (vc w ζ) n m k i k j = (((m j : ℝ) + 1) * ((m k : ℝ) + 1 / 2)) * (-4 * (ζ i k * ζ j k) * (w i * w j + w k ^ 2) / (w k * Real.sqrt (w i * w j))) := by
  have rki : Real.sqrt (w k / w i) = Real.sqrt (w k) / Real.sqrt (w i) := Real.sqrt_div (hw k).le _
  have rkj : Real.sqrt (w k / w j) = Real.sqrt (w k) / Real.sqrt (w j) := Real.sqrt_div (hw k).le _
  have rik : Real.sqrt (w i / w k) = Real.sqrt (w i) / Real.sqrt (w k) := Real.sqrt_div (hw i).le _
  have rij : Real.sqrt (w i / w j) = Real.sqrt (w i) / Real.sqrt (w j) := Real.sqrt_div (hw i).le _
  have rjk : Real.sqrt (w j / w k) = Real.sqrt (w j) / Real.sqrt (w k) := Real.sqrt_div (hw j).le _
  have rji : Real.sqrt (w j / w i) = Real.sqrt (w j) / Real.sqrt (w i) := Real.sqrt_div (hw j).le _
  have zk : ζ k k = 0 := by have := hζ k k; linarith
  have zi : ζ i i = 0 := by have := hζ i i; linarith
  have zj : ζ j j = 0 := by have := hζ j j; linarith
  have pk : Real.sqrt (w k) ≠ 0 := (Real.sqrt_pos.2 (hw k)).ne'
  have ek : Real.sqrt (w k) ^ 2 = w k := Real.sq_sqrt (hw k).le
  have pi : Real.sqrt (w i) ≠ 0 := (Real.sqrt_pos.2 (hw i)).ne'
  have ei : Real.sqrt (w i) ^ 2 = w i := Real.sq_sqrt (hw i).le
  have pj : Real.sqrt (w j) ≠ 0 := (Real.sqrt_pos.2 (hw j)).ne'
  have ej : Real.sqrt (w j) ^ 2 = w j := Real.sq_sqrt (hw j).le
  rw [six_value (vc w ζ) (show unit i + unit k - unit j - unit k = m - n by first | exact h | (rw [← h]; abel)), six_value (vc w ζ) (show unit i + unit k - unit k - unit j = m - n by first | exact h | (rw [← h]; abel)), six_value (vc w ζ) (show unit k + unit i - unit j - unit k = m - n by first | exact h | (rw [← h]; abel)), six_value (vc w ζ) (show unit k + unit i - unit k - unit j = m - n by first | exact h | (rw [← h]; abel))]
  simp only [vc, leg2, zk, zi, zj, hζ i k, hζ j k, hζ j i, rki, rkj, rik, rij, rjk, rji, unit_at, hij, hij.symm, hik, hik.symm, hjk, hjk.symm, if_true, if_false, Bool.false_eq_true, zero_mul, mul_zero, add_zero, zero_add, Int.cast_zero, Int.cast_one]
  rw [Real.sqrt_mul (hw i).le]
  generalize Real.sqrt (w i) = rI at *
  generalize Real.sqrt (w j) = rJ at *
  generalize Real.sqrt (w k) = rK at *
  rw [← ei, ← ej, ← ek]
  field_simp
  ring

end Verif.Osc
