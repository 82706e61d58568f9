import Verif.Lemmas.LadderG
import Mathlib.Algebra.BigOperators.Ring.Finset
import Mathlib.Algebra.Module.LinearMap.End
import Mathlib.Algebra.Algebra.Basic
import Mathlib.Algebra.Module.BigOperators
import Mathlib.Data.Fintype.BigOperators
import Mathlib.Tactic.NoncommRing

/-!
# Products of raising and lowering operators

Helpers for C108: the commutator of two cubic expressions in operators whose commutators are numbers.
-/

namespace Verif.Osc

open Finset

section
variable {A L : Type} [Ring A] [Algebra ℝ A] [Fintype L]

theorem sum6 {M : Type} [AddCommMonoid M] (f : L → L → L → L → L → L → M) :
    ∑ a, ∑ b, ∑ c, ∑ d, ∑ e, ∑ g, f a b c d e g =
      ∑ p : L × L × L × L × L × L, f p.1 p.2.1 p.2.2.1 p.2.2.2.1 p.2.2.2.2.1 p.2.2.2.2.2 := by
  simp only [Fintype.sum_prod_type]

/-- `Σ G_xyz x y z`. -/
def cube (op : L → A) (G : L → L → L → ℝ) : A := ∑ x, ∑ y, ∑ z, G x y z • (op x * op y * op z)

/-- `Σ C_xyvt x y v t`. -/
def tess (op : L → A) (C : L → L → L → L → ℝ) : A := ∑ x, ∑ y, ∑ v, ∑ t, C x y v t • (op x * op y * op v * op t)

theorem tess_add (op : L → A) (C C' : L → L → L → L → ℝ) :
    tess op (fun x y v t => C x y v t + C' x y v t) = tess op C + tess op C' := by
  simp only [tess, add_smul, sum_add_distrib]

theorem tess_smul (op : L → A) (c : ℝ) (C : L → L → L → L → ℝ) :
    tess op (fun x y v t => c * C x y v t) = c • tess op C := by
  simp only [tess, mul_smul, smul_sum]

variable {op : L → A} {s : L → L → ℝ} (hs : ∀ l l', op l * op l' - op l' * op l = s l l' • 1)
  {G Φ : L → L → L → ℝ} (hG : ∀ x y z, G x y z = G y x z ∧ G x y z = G x z y)
  (hΦ : ∀ x y z, Φ x y z = Φ y x z ∧ Φ x y z = Φ x z y)

include hs hG in
theorem cube_comm (t : L) : cube op G * op t - op t * cube op G =
    (3 : ℝ) • ∑ l, ∑ y, ∑ z, (s l t * G l y z) • (op y * op z) := by
  have key : ∀ x y z, op x * op y * op z * op t - op t * (op x * op y * op z) =
      s x t • (op y * op z) + s y t • (op x * op z) + s z t • (op x * op y) := by
    intro x y z
    have e1 : s x t • (op y * op z) = (op x * op t - op t * op x) * (op y * op z) := by rw [hs]; simp
    have e2 : s y t • (op x * op z) = op x * (op y * op t - op t * op y) * op z := by rw [hs]; simp
    have e3 : s z t • (op x * op y) = op x * op y * (op z * op t - op t * op z) := by rw [hs]; simp
    rw [e1, e2, e3]
    noncomm_ring
  have e : cube op G * op t - op t * cube op G = ∑ x, ∑ y, ∑ z, ((s x t * G x y z) • (op y * op z) +
      (s y t * G y x z) • (op x * op z) + (s z t * G z x y) • (op x * op y)) := by
    simp only [cube, sum_mul, mul_sum, ← sum_sub_distrib]
    refine sum_congr rfl fun x _ => sum_congr rfl fun y _ => sum_congr rfl fun z _ => ?_
    rw [smul_mul_assoc, mul_smul_comm, ← smul_sub, key, smul_add, smul_add, smul_smul, smul_smul, smul_smul,
      ← (hG x y z).1, show G z x y = G x y z by rw [(hG z x y).1, (hG x z y).2], mul_comm (s x t), mul_comm (s y t),
      mul_comm (s z t)]
  rw [e]
  simp only [sum_add_distrib]
  have a2 : ∑ x, ∑ y, ∑ z, (s y t * G y x z) • (op x * op z) = ∑ l, ∑ y, ∑ z, (s l t * G l y z) • (op y * op z) := sum_comm
  have a3 : ∑ x, ∑ y, ∑ z, (s z t * G z x y) • (op x * op y) = ∑ l, ∑ y, ∑ z, (s l t * G l y z) • (op y * op z) := by
    rw [sum_comm]
    refine (sum_congr rfl fun _ _ => sum_comm).trans ?_
    rw [sum_comm]
    exact sum_congr rfl fun _ _ => sum_comm
  rw [a2, a3, show (3 : ℝ) = 1 + 1 + 1 by norm_num, add_smul, add_smul, one_smul]

include hs hG hΦ in
/-- The commutator of two cubic expressions. -/
theorem cube_cube : cube op G * cube op Φ - cube op Φ * cube op G = (3 : ℝ) • tess op fun x y v t =>
    (∑ l, ∑ l', s l l' * G l x y * Φ l' v t) + (∑ l, ∑ l', s l l' * G l y v * Φ l' x t) +
      ∑ l, ∑ l', s l l' * G l v t * Φ l' x y := by
  have h := cube_comm hs hG
  set E : L → A := fun u => ∑ l, ∑ y, ∑ z, (s l u * G l y z) • (op y * op z) with hE
  have e : cube op G * cube op Φ - cube op Φ * cube op G = (3 : ℝ) • ∑ u, ∑ v, ∑ t, Φ u v t •
      (E u * op v * op t + op u * E v * op t + op u * op v * E t) := by
    have : ∀ u v t, cube op G * (op u * op v * op t) - op u * op v * op t * cube op G =
        (3 : ℝ) • (E u * op v * op t + op u * E v * op t + op u * op v * E t) := by
      intro u v t
      have : (3 : ℝ) • (E u * op v * op t + op u * E v * op t + op u * op v * E t) =
          ((3 : ℝ) • E u) * op v * op t + op u * ((3 : ℝ) • E v) * op t + op u * op v * ((3 : ℝ) • E t) := by
        simp only [smul_add, smul_mul_assoc, mul_smul_comm]
      rw [this, ← h, ← h, ← h]
      noncomm_ring
    conv_lhs => rw [show cube op Φ = ∑ x, ∑ y, ∑ z, Φ x y z • (op x * op y * op z) from rfl]
    simp only [mul_sum, sum_mul, ← sum_sub_distrib, smul_sum]
    refine sum_congr rfl fun x _ => sum_congr rfl fun y _ => sum_congr rfl fun z _ => ?_
    rw [mul_smul_comm, smul_mul_assoc, ← smul_sub, this, smul_comm]
  rw [e]
  congr 1
  simp only [smul_add, sum_add_distrib, tess, add_smul]
  congr 1
  · congr 1
    · simp only [hE, sum_mul, smul_sum, Finset.sum_smul, smul_mul_assoc, smul_smul]
      rw [sum6, sum6]
      refine Fintype.sum_equiv ⟨fun p => (p.2.2.2.2.1, p.2.2.2.2.2, p.2.1, p.2.2.1, p.2.2.2.1, p.1),
        fun p => (p.2.2.2.2.2, p.2.2.1, p.2.2.2.1, p.2.2.2.2.1, p.1, p.2.1), fun _ => rfl, fun _ => rfl⟩ _ _ fun p => ?_
      simp only [Equiv.coe_fn_mk]
      rw [mul_comm]
    · simp only [hE, sum_mul, mul_sum, smul_sum, Finset.sum_smul, smul_mul_assoc, mul_smul_comm, smul_smul]
      rw [sum6, sum6]
      refine Fintype.sum_equiv ⟨fun p => (p.1, p.2.2.2.2.1, p.2.2.2.2.2, p.2.2.1, p.2.2.2.1, p.2.1),
        fun p => (p.1, p.2.2.2.2.2, p.2.2.2.1, p.2.2.2.2.1, p.2.1, p.2.2.1), fun _ => rfl, fun _ => rfl⟩ _ _ fun p => ?_
      simp only [Equiv.coe_fn_mk, mul_assoc]
      rw [mul_comm, (hΦ p.1 p.2.1 p.2.2.1).1, mul_assoc]
  · simp only [hE, sum_mul, mul_sum, smul_sum, Finset.sum_smul, smul_mul_assoc, mul_smul_comm, smul_smul]
    rw [sum6, sum6]
    refine Fintype.sum_equiv ⟨fun p => (p.1, p.2.1, p.2.2.2.2.1, p.2.2.2.2.2, p.2.2.2.1, p.2.2.1),
      fun p => (p.1, p.2.1, p.2.2.2.2.2, p.2.2.2.2.1, p.2.2.1, p.2.2.2.1), fun _ => rfl, fun _ => rfl⟩ _ _ fun p => ?_
    simp only [Equiv.coe_fn_mk, mul_assoc]
    rw [mul_comm, (hΦ p.1 p.2.1 p.2.2.1).2, (hΦ p.1 p.2.2.1 p.2.1).1, mul_assoc]
end

end Verif.Osc
