import Verif.Spec.Threefold
import Mathlib.Tactic.Ring
import Mathlib.Tactic.Linarith
import Mathlib.Tactic.LinearCombination
import Mathlib.Tactic.IntervalCases

/-!
# Molecules with a threefold axis: examples

Helpers for C105.
-/

namespace Verif

open Finset

/-- Cubic constants of a non-degenerate mode 2 and a degenerate mode (0, 1). -/
noncomputable def topCubic (a b c : ℝ) (i j k : Nat) : ℝ :=
  if i = 2 ∧ j = 2 ∧ k = 2 then a
  else if (i = 2 ∧ j = k ∧ k < 2) ∨ (j = 2 ∧ i = k ∧ k < 2) ∨ (k = 2 ∧ i = j ∧ j < 2) then b
  else if i = 0 ∧ j = 0 ∧ k = 0 then c
  else if (i = 0 ∧ j = 1 ∧ k = 1) ∨ (i = 1 ∧ j = 0 ∧ k = 1) ∨ (i = 1 ∧ j = 1 ∧ k = 0) then -c
  else 0

/-- Quartic constants of a non-degenerate mode 2 and a degenerate mode (0, 1). -/
noncomputable def topQuartic (d f : ℝ) (i j k l : Nat) : ℝ :=
  if i = 2 ∧ j = 2 ∧ k = 2 ∧ l = 2 then d
  else if i < 2 ∧ i = j ∧ j = k ∧ k = l then 3 * f
  else if (i < 2 ∧ i = j ∧ k < 2 ∧ k = l) ∨ (i < 2 ∧ i = k ∧ j < 2 ∧ j = l) ∨ (i < 2 ∧ i = l ∧ j < 2 ∧ j = k) then f
  else 0

/-- Coriolis constants of an atom which moves along the three axes, the sense of the displacements being `e`. -/
noncomputable def topZeta (e : Nat → ℝ) (i j a : Nat) : ℝ :=
  if (i = 0 ∧ j = 1 ∧ a = 2) ∨ (i = 1 ∧ j = 2 ∧ a = 0) ∨ (i = 2 ∧ j = 0 ∧ a = 1) then e i * e j
  else if (i = 1 ∧ j = 0 ∧ a = 2) ∨ (i = 2 ∧ j = 1 ∧ a = 0) ∨ (i = 0 ∧ j = 2 ∧ a = 1) then -(e i * e j)
  else 0

/-- The sign of the modes 0, 1, 2 under the flip. -/
noncomputable def topSign (i : Nat) : ℝ := if i = 1 then -1 else 1

theorem topCubic_form (a b c : ℝ) (u v t : Nat → ℝ) : form3 3 (topCubic a b c) u v t =
    a * u 2 * v 2 * t 2 + b * (u 2 * (v 0 * t 0 + v 1 * t 1) + v 2 * (u 0 * t 0 + u 1 * t 1) + t 2 * (u 0 * v 0 + u 1 * v 1)) +
    c * (u 0 * v 0 * t 0 - u 0 * v 1 * t 1 - u 1 * v 0 * t 1 - u 1 * v 1 * t 0) := by
  simp [form3, sum_range_succ, topCubic]
  ring

theorem topQuartic_form (d f : ℝ) (u v t r : Nat → ℝ) : form4 3 (topQuartic d f) u v t r =
    d * u 2 * v 2 * t 2 * r 2 + f * ((u 0 * v 0 + u 1 * v 1) * (t 0 * r 0 + t 1 * r 1) +
      (u 0 * t 0 + u 1 * t 1) * (v 0 * r 0 + v 1 * r 1) + (u 0 * r 0 + u 1 * r 1) * (v 0 * t 0 + v 1 * t 1)) := by
  simp [form4, sum_range_succ, topQuartic]
  ring

theorem topZeta_form (e u v x : Nat → ℝ) : coriolisForm 3 (topZeta e) u v x =
    e 0 * e 1 * (u 0 * v 1 - u 1 * v 0) * x 2 + e 1 * e 2 * (u 1 * v 2 - u 2 * v 1) * x 0 +
    e 2 * e 0 * (u 2 * v 0 - u 0 * v 2) * x 1 := by
  simp [coriolisForm, sum_range_succ, topZeta]
  ring

theorem third_dot {σ : ℝ} (hσ : σ = 1 ∨ σ = -1) {u v u' v' : Nat → ℝ} (hu : ThirdTurn [2] [(0, 1)] (fun _ => σ) u u')
    (hv : ThirdTurn [2] [(0, 1)] (fun _ => σ) v v') : u' 0 * v' 0 + u' 1 * v' 1 = u 0 * v 0 + u 1 * v 1 := by
  have h3 : Real.sqrt 3 ^ 2 = 3 := Real.sq_sqrt (by norm_num)
  have u0 : u' 0 = _ := hu.first (0, 1) (by simp)
  have u1 : u' 1 = _ := hu.second (0, 1) (by simp)
  have v0 : v' 0 = _ := hv.first (0, 1) (by simp)
  have v1 : v' 1 = _ := hv.second (0, 1) (by simp)
  rw [u0, u1, v0, v1]
  rcases hσ with rfl | rfl <;> linear_combination (u 0 * v 0 + u 1 * v 1) / 4 * h3

/-- A non-degenerate mode 2 and a degenerate mode (0, 1), with a threefold axis. -/
theorem top_threefold (a b c d f : ℝ) (e w B : Nat → ℝ) (he : ∀ i < 3, e i = 1 ∨ e i = -1) (hw : w 1 = w 0) (hB : B 0 = B 1) :
    Threefold 3 [2] [(0, 1)] (fun _ => e 0 * e 1) topSign 1 w (topCubic a b c) (topQuartic d f) (topZeta e) B := by
  have hσ : e 0 * e 1 = 1 ∨ e 0 * e 1 = -1 := by
    rcases he 0 (by omega) with h | h <;> rcases he 1 (by omega) with h' | h' <;> rw [h, h'] <;> norm_num
  have h3 : Real.sqrt 3 ^ 2 = 3 := Real.sq_sqrt (by norm_num)
  refine ⟨by decide, fun _ _ => hσ, fun i _ => ?_, ?_, le_rfl, by simpa using hw, hB, ?_, ?_, ?_, ?_, ?_, ?_⟩
  · unfold topSign; split <;> simp
  · simp [topSign]
  · intro u v t u' v' t' hu hv ht
    rw [topCubic_form, topCubic_form, third_dot hσ hv ht, third_dot hσ hu ht, third_dot hσ hu hv,
      hu.single 2 (by simp), hv.single 2 (by simp), ht.single 2 (by simp)]
    have u0 : u' 0 = _ := hu.first (0, 1) (by simp)
    have u1 : u' 1 = _ := hu.second (0, 1) (by simp)
    have v0 : v' 0 = _ := hv.first (0, 1) (by simp)
    have v1 : v' 1 = _ := hv.second (0, 1) (by simp)
    have t0 : t' 0 = _ := ht.first (0, 1) (by simp)
    have t1 : t' 1 = _ := ht.second (0, 1) (by simp)
    rw [u0, u1, v0, v1, t0, t1]
    congr 2
    generalize e 0 * e 1 = σ at hσ
    have s2 : σ ^ 2 = 1 := by rcases hσ with rfl | rfl <;> norm_num
    have q2 : (σ * (Real.sqrt 3 / 2)) ^ 2 = 3 / 4 := by rw [mul_pow, s2, div_pow, h3]; norm_num
    simp only
    generalize σ * (Real.sqrt 3 / 2) = q at q2
    have q3 : q ^ 3 = 3 / 4 * q := by rw [pow_succ, q2]
    ring_nf
    rw [q2, q3]
    ring
  · intro u v t
    rw [topCubic_form, topCubic_form]
    simp [topSign]
  · intro u v t r u' v' t' r' hu hv ht hr
    rw [topQuartic_form, topQuartic_form, third_dot hσ hu hv, third_dot hσ hu ht, third_dot hσ hu hr, third_dot hσ ht hr,
      third_dot hσ hv hr, third_dot hσ hv ht, hu.single 2 (by simp), hv.single 2 (by simp), ht.single 2 (by simp),
      hr.single 2 (by simp)]
  · intro u v t r
    rw [topQuartic_form, topQuartic_form]
    simp [topSign]
  · intro u v x u' v' x' hu hv hx
    rw [topZeta_form, topZeta_form, hu.single 2 (by simp), hv.single 2 (by simp)]
    obtain ⟨x0, x1, x2⟩ := hx
    have u0 : u' 0 = _ := hu.first (0, 1) (by simp)
    have u1 : u' 1 = _ := hu.second (0, 1) (by simp)
    have v0 : v' 0 = _ := hv.first (0, 1) (by simp)
    have v1 : v' 1 = _ := hv.second (0, 1) (by simp)
    rw [u0, u1, v0, v1, x0, x1, x2]
    have e0 : e 0 ^ 2 = 1 := by rcases he 0 (by omega) with h | h <;> rw [h] <;> norm_num
    have e1 : e 1 ^ 2 = 1 := by rcases he 1 (by omega) with h | h <;> rw [h] <;> norm_num
    simp only
    rcases he 0 (by omega) with h | h <;> rcases he 1 (by omega) with h' | h' <;> rw [h, h'] <;> ring_nf <;> rw [h3] <;> ring
  · intro u v x
    rw [topZeta_form, topZeta_form]
    simp [topSign]
    ring

theorem topCubic_symm (a b c : ℝ) : Symm3 3 (topCubic a b c) := by
  intro i j k hi hj hk
  interval_cases i <;> interval_cases j <;> interval_cases k <;> simp [topCubic]

theorem topQuartic_symm (d f : ℝ) : Symm4 3 (topQuartic d f) := by
  intro i j k l hi hj hk hl
  interval_cases i <;> interval_cases j <;> interval_cases k <;> interval_cases l <;> simp [topQuartic]

theorem topZeta_anti (e : Nat → ℝ) (i j a : Nat) (hi : i < 3) (hj : j < 3) : topZeta e i j a = -topZeta e j i a := by
  interval_cases i <;> interval_cases j <;> by_cases h0 : a = 0 <;> by_cases h1 : a = 1 <;> by_cases h2 : a = 2 <;>
    simp [topZeta, h0, h1, h2, mul_comm]

/-! ### An odd non-degenerate mode -/

/-- Cubic constants of an odd non-degenerate mode 0 and two degenerate modes (1, 2) and (3, 4). -/
noncomputable def oddCubic (i j k : Nat) : ℝ :=
  if (i, j, k) ∈ [(0, 1, 4), (0, 4, 1), (1, 0, 4), (1, 4, 0), (4, 0, 1), (4, 1, 0)] then 100
  else if (i, j, k) ∈ [(0, 2, 3), (0, 3, 2), (2, 0, 3), (2, 3, 0), (3, 0, 2), (3, 2, 0)] then -100
  else 0

/-- The sign of these modes under the flip. -/
noncomputable def oddSign (i : Nat) : ℝ := if i = 1 ∨ i = 3 then 1 else -1

/-- Frequencies of these modes. -/
noncomputable def oddFreq (i : Nat) : ℝ := if i = 0 then 750 else if i < 3 then 1250 else 1750

theorem oddCubic_form (u v t : Nat → ℝ) : form3 5 oddCubic u v t =
    100 * (u 0 * (v 1 * t 4 - v 2 * t 3 - (t 2 * v 3 - t 1 * v 4)) + v 0 * (u 1 * t 4 - u 2 * t 3 - (t 2 * u 3 - t 1 * u 4)) +
      t 0 * (v 1 * u 4 - v 2 * u 3 - (u 2 * v 3 - u 1 * v 4))) := by
  simp [form3, sum_range_succ, oddCubic]
  ring

theorem third_cross {u v u' v' : Nat → ℝ} (hu : ThirdTurn [0] [(1, 2), (3, 4)] (fun _ => 1) u u')
    (hv : ThirdTurn [0] [(1, 2), (3, 4)] (fun _ => 1) v v') : u' 1 * v' 4 - u' 2 * v' 3 = u 1 * v 4 - u 2 * v 3 := by
  have h3 : Real.sqrt 3 ^ 2 = 3 := Real.sq_sqrt (by norm_num)
  have u0 : u' 1 = _ := hu.first (1, 2) (by simp)
  have u1 : u' 2 = _ := hu.second (1, 2) (by simp)
  have v0 : v' 3 = _ := hv.first (3, 4) (by simp)
  have v1 : v' 4 = _ := hv.second (3, 4) (by simp)
  rw [u0, u1, v0, v1]
  linear_combination (u 1 * v 4 - u 2 * v 3) / 4 * h3

theorem odd_threefold : Threefold 5 [0] [(1, 2), (3, 4)] (fun _ => 1) oddSign 1 oddFreq oddCubic (fun _ _ _ _ => 0)
    (fun _ _ _ => 0) (fun _ => 1) := by
  refine ⟨by decide, fun _ _ => .inl rfl, fun i _ => ?_, ?_, le_rfl, ?_, rfl, ?_, ?_, ?_, ?_, ?_, ?_⟩
  · unfold oddSign; split <;> simp
  · simp [oddSign]
  · simp [oddFreq]
  · intro u v t u' v' t' hu hv ht
    rw [oddCubic_form, oddCubic_form, hu.single 0 (by simp), hv.single 0 (by simp), ht.single 0 (by simp)]
    have a := third_cross hu hv
    have b := third_cross hv hu
    have c := third_cross hu ht
    have d := third_cross ht hu
    have e := third_cross hv ht
    have f := third_cross ht hv
    linear_combination 100 * (u 0 * (e + f) + v 0 * (c + d) + t 0 * (a + b))
  · intro u v t
    rw [oddCubic_form, oddCubic_form]
    simp [oddSign]
    ring
  · intros; simp [form4]
  · intros; simp [form4]
  · intros; simp [coriolisForm]
  · intros; simp [coriolisForm]

theorem oddCubic_symm : Symm3 5 oddCubic := by
  intro i j k hi hj hk
  interval_cases i <;> interval_cases j <;> interval_cases k <;> simp [oddCubic]

/-! ### Coriolis coupling of two degenerate modes about the axis of the half-turn -/

/-- Coriolis constants of two degenerate modes (0, 1) and (2, 3): the first components couple about axis 0. -/
noncomputable def crossZeta (i j a : Nat) : ℝ :=
  if (i, j, a) ∈ [(0, 2, 0), (3, 1, 0), (3, 0, 1), (2, 1, 1)] then 1 / 2
  else if (i, j, a) ∈ [(2, 0, 0), (1, 3, 0), (0, 3, 1), (1, 2, 1)] then -(1 / 2)
  else 0

/-- The sign of these modes under the flip. -/
noncomputable def crossSign (i : Nat) : ℝ := if i = 0 ∨ i = 2 then 1 else -1

/-- Frequencies of these modes. -/
noncomputable def crossFreq (i : Nat) : ℝ := if i < 2 then 1000 else 1700

theorem crossZeta_form (u v x : Nat → ℝ) : coriolisForm 4 crossZeta u v x =
    1 / 2 * (((u 0 * v 2 - u 1 * v 3) - (v 0 * u 2 - v 1 * u 3)) * x 0 -
      ((u 0 * v 3 + u 1 * v 2) - (v 0 * u 3 + v 1 * u 2)) * x 1) := by
  simp [coriolisForm, sum_range_succ, crossZeta]
  ring

theorem cross_threefold : Threefold 4 [] [(0, 1), (2, 3)] (fun _ => 1) crossSign 0 crossFreq (fun _ _ _ => 0) (fun _ _ _ _ => 0)
    crossZeta (fun _ => 1) := by
  have h3 : Real.sqrt 3 ^ 2 = 3 := Real.sq_sqrt (by norm_num)
  refine ⟨by decide, fun _ _ => .inl rfl, fun i _ => ?_, ?_, by norm_num, ?_, rfl, ?_, ?_, ?_, ?_, ?_, ?_⟩
  · unfold crossSign; split <;> simp
  · simp [crossSign]
  · simp [crossFreq]
  · intros; simp [form3]
  · intros; simp [form3]
  · intros; simp [form4]
  · intros; simp [form4]
  · intro u v x u' v' x' hu hv hx
    obtain ⟨x0, x1, -⟩ := hx
    have u0 : u' 0 = _ := hu.first (0, 1) (by simp)
    have u1 : u' 1 = _ := hu.second (0, 1) (by simp)
    have u2 : u' 2 = _ := hu.first (2, 3) (by simp)
    have u3 : u' 3 = _ := hu.second (2, 3) (by simp)
    have v0 : v' 0 = _ := hv.first (0, 1) (by simp)
    have v1 : v' 1 = _ := hv.second (0, 1) (by simp)
    have v2 : v' 2 = _ := hv.first (2, 3) (by simp)
    have v3 : v' 3 = _ := hv.second (2, 3) (by simp)
    rw [crossZeta_form, crossZeta_form, u0, u1, u2, u3, v0, v1, v2, v3, x0, x1]
    simp only
    generalize Real.sqrt 3 = q at *
    have q3 : q ^ 3 = 3 * q := by rw [pow_succ, h3]
    ring_nf
    rw [h3, q3]
    ring
  · intro u v x
    rw [crossZeta_form, crossZeta_form]
    simp [crossSign]
    ring

theorem crossZeta_anti (a i j : Nat) (hi : i < 4) (hj : j < 4) : crossZeta i j a = -crossZeta j i a := by
  interval_cases i <;> interval_cases j <;> by_cases h0 : a = 0 <;> by_cases h1 : a = 1 <;> simp [crossZeta, h0, h1]

/-! ### An even non-degenerate mode which couples two degenerate modes -/

/-- Cubic constants of an even non-degenerate mode 0 and two degenerate modes (1, 2) and (3, 4). -/
noncomputable def evenCubic (i j k : Nat) : ℝ :=
  if (i, j, k) ∈ [(0, 1, 3), (0, 3, 1), (1, 0, 3), (1, 3, 0), (3, 0, 1), (3, 1, 0),
    (0, 2, 4), (0, 4, 2), (2, 0, 4), (2, 4, 0), (4, 0, 2), (4, 2, 0)] then 100
  else 0

/-- The sign of these modes and another degenerate mode (5, 6) under the flip. -/
noncomputable def evenSign (i : Nat) : ℝ := if i = 2 ∨ i = 4 ∨ i = 6 then -1 else 1

/-- Frequencies of these modes. -/
noncomputable def evenFreq (i : Nat) : ℝ := if i = 0 then 750 else if i < 3 then 1250 else if i < 5 then 1750 else 1900

theorem evenCubic_form {N : Nat} (hN : N = 5 ∨ N = 7) (u v t : Nat → ℝ) : form3 N evenCubic u v t =
    100 * (u 0 * ((v 1 * t 3 + v 2 * t 4) + (t 1 * v 3 + t 2 * v 4)) + v 0 * ((u 1 * t 3 + u 2 * t 4) + (t 1 * u 3 + t 2 * u 4)) +
      t 0 * ((v 1 * u 3 + v 2 * u 4) + (u 1 * v 3 + u 2 * v 4))) := by
  rcases hN with rfl | rfl <;> simp [form3, sum_range_succ, evenCubic] <;> ring

theorem third_dots {one : List Nat} {two : List (Nat × Nat)} (h1 : (1, 2) ∈ two) (h2 : (3, 4) ∈ two) {u v u' v' : Nat → ℝ}
    (hu : ThirdTurn one two (fun _ => 1) u u') (hv : ThirdTurn one two (fun _ => 1) v v') :
    u' 1 * v' 3 + u' 2 * v' 4 = u 1 * v 3 + u 2 * v 4 := by
  have h3 : Real.sqrt 3 ^ 2 = 3 := Real.sq_sqrt (by norm_num)
  have u0 : u' 1 = _ := hu.first (1, 2) h1
  have u1 : u' 2 = _ := hu.second (1, 2) h1
  have v0 : v' 3 = _ := hv.first (3, 4) h2
  have v1 : v' 4 = _ := hv.second (3, 4) h2
  rw [u0, u1, v0, v1]
  linear_combination (u 1 * v 3 + u 2 * v 4) / 4 * h3

theorem even_threefold {N : Nat} {two : List (Nat × Nat)}
    (h : N = 5 ∧ two = [(1, 2), (3, 4)] ∨ N = 7 ∧ two = [(1, 2), (3, 4), (5, 6)]) :
    Threefold N [0] two (fun _ => 1) evenSign 1 evenFreq evenCubic (fun _ _ _ _ => 0) (fun _ _ _ => 0) (fun _ => 1) := by
  have hN : N = 5 ∨ N = 7 := h.imp And.left And.left
  have h1 : (1, 2) ∈ two := by rcases h with ⟨-, rfl⟩ | ⟨-, rfl⟩ <;> simp
  have h2 : (3, 4) ∈ two := by rcases h with ⟨-, rfl⟩ | ⟨-, rfl⟩ <;> simp
  refine ⟨?_, fun _ _ => .inl rfl, fun i _ => ?_, ?_, le_rfl, ?_, rfl, ?_, ?_, ?_, ?_, ?_, ?_⟩
  · rcases h with ⟨rfl, rfl⟩ | ⟨rfl, rfl⟩ <;> decide
  · unfold evenSign; split <;> simp
  · rcases h with ⟨-, rfl⟩ | ⟨-, rfl⟩ <;> simp [evenSign]
  · rcases h with ⟨-, rfl⟩ | ⟨-, rfl⟩ <;> simp [evenFreq]
  · intro u v t u' v' t' hu hv ht
    rw [evenCubic_form hN, evenCubic_form hN, hu.single 0 (by simp), hv.single 0 (by simp), ht.single 0 (by simp)]
    have a := third_dots h1 h2 hu hv
    have b := third_dots h1 h2 hv hu
    have c := third_dots h1 h2 hu ht
    have d := third_dots h1 h2 ht hu
    have e := third_dots h1 h2 hv ht
    have f := third_dots h1 h2 ht hv
    linear_combination 100 * (u 0 * (e + f) + v 0 * (c + d) + t 0 * (a + b))
  · intro u v t
    rw [evenCubic_form hN, evenCubic_form hN]
    simp [evenSign]
  · intros; simp [form4]
  · intros; simp [form4]
  · intros; simp [coriolisForm]
  · intros; simp [coriolisForm]

theorem evenCubic_symm (N : Nat) : Symm3 N evenCubic := by
  intro i j k _ _ _
  unfold evenCubic
  have a : ∀ q ∈ [(0, 1, 3), (0, 3, 1), (1, 0, 3), (1, 3, 0), (3, 0, 1), (3, 1, 0),
    (0, 2, 4), (0, 4, 2), (2, 0, 4), (2, 4, 0), (4, 0, 2), (4, 2, 0)], (q.2.1, q.1, q.2.2) ∈ [(0, 1, 3), (0, 3, 1), (1, 0, 3),
    (1, 3, 0), (3, 0, 1), (3, 1, 0), (0, 2, 4), (0, 4, 2), (2, 0, 4), (2, 4, 0), (4, 0, 2), (4, 2, 0)] := by decide
  have b : ∀ q ∈ [(0, 1, 3), (0, 3, 1), (1, 0, 3), (1, 3, 0), (3, 0, 1), (3, 1, 0),
    (0, 2, 4), (0, 4, 2), (2, 0, 4), (2, 4, 0), (4, 0, 2), (4, 2, 0)], (q.1, q.2.2, q.2.1) ∈ [(0, 1, 3), (0, 3, 1), (1, 0, 3),
    (1, 3, 0), (3, 0, 1), (3, 1, 0), (0, 2, 4), (0, 4, 2), (2, 0, 4), (2, 4, 0), (4, 0, 2), (4, 2, 0)] := by decide
  exact ⟨if_congr ⟨a (i, j, k), a (j, i, k)⟩ rfl rfl, if_congr ⟨b (i, j, k), b (i, k, j)⟩ rfl rfl⟩

end Verif
