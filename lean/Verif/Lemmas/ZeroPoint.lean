import Verif.Lemmas.LadderForm
import Verif.Lemmas.LadderRes
import Mathlib.Algebra.BigOperators.Field

/-!
# The ground-state energy in closed form

Helpers for C109.
-/

namespace Verif.Osc

open Finset

section
variable {σ : Type} [Fintype σ] [DecidableEq σ]

theorem D2_key (key : σ → Nat) (hk : Function.Injective key) (f : σ → σ → ℝ) (h : ∀ a b, f a b = f b a) :
    D2 f = 2 * ∑ a, ∑ b, if key b < key a then f a b else 0 := by
  have e : D2 f = (∑ a, ∑ b, if key b < key a then f a b else 0) + ∑ a, ∑ b, if key a < key b then f a b else 0 := by
    unfold D2
    rw [← sum_add_distrib]
    refine sum_congr rfl fun a _ => ?_
    rw [← sum_add_distrib]
    refine sum_congr rfl fun b _ => ?_
    have ne : a ≠ b ↔ key a ≠ key b := hk.ne_iff.symm
    rcases lt_trichotomy (key a) (key b) with h | h | h
    · rw [if_pos (ne.2 h.ne), if_neg h.not_gt, if_pos h, zero_add]
    · rw [if_neg (by rw [ne]; simpa using h), if_neg (by omega), if_neg (by omega), zero_add]
    · rw [if_pos (ne.2 h.ne'), if_pos h, if_neg h.not_gt, add_zero]
  have e2 : (∑ a, ∑ b, if key a < key b then f a b else 0) = ∑ a, ∑ b, if key b < key a then f a b else 0 := by
    rw [sum_comm]
    refine sum_congr rfl fun a _ => sum_congr rfl fun b _ => ?_
    rw [h b a]
  rw [e, e2]; ring

theorem D3_key (key : σ → Nat) (hk : Function.Injective key) (f : σ → σ → σ → ℝ)
    (h : ∀ a b c, f a b c = f b a c ∧ f a b c = f a c b) :
    D3 f = 6 * ∑ a, ∑ b, ∑ c, if key b < key a ∧ key c < key b then f a b c else 0 := by
  set O := ∑ a, ∑ b, ∑ c, if key b < key a ∧ key c < key b then f a b c else 0 with hO
  have sw23 : ∀ P : σ → σ → σ → Prop, ∀ [∀ a b c, Decidable (P a b c)],
      (∑ a, ∑ b, ∑ c, if P a b c then f a b c else 0) = ∑ a, ∑ b, ∑ c, if P a c b then f a b c else 0 := by
    intro P _
    refine sum_congr rfl fun a _ => ?_
    rw [sum_comm]
    refine sum_congr rfl fun b _ => sum_congr rfl fun c _ => ?_
    rw [(h a c b).2]
  have sw12 : ∀ P : σ → σ → σ → Prop, ∀ [∀ a b c, Decidable (P a b c)],
      (∑ a, ∑ b, ∑ c, if P a b c then f a b c else 0) = ∑ a, ∑ b, ∑ c, if P b a c then f a b c else 0 := by
    intro P _
    rw [sum_comm]
    refine sum_congr rfl fun a _ => sum_congr rfl fun b _ => sum_congr rfl fun c _ => ?_
    rw [(h b a c).1]
  have e : D3 f = O + (∑ a, ∑ b, ∑ c, if key c < key a ∧ key b < key c then f a b c else 0) +
      (∑ a, ∑ b, ∑ c, if key a < key b ∧ key c < key a then f a b c else 0) +
      (∑ a, ∑ b, ∑ c, if key c < key b ∧ key a < key c then f a b c else 0) +
      (∑ a, ∑ b, ∑ c, if key a < key c ∧ key b < key a then f a b c else 0) +
      ∑ a, ∑ b, ∑ c, if key b < key c ∧ key a < key b then f a b c else 0 := by
    unfold D3
    simp only [hO, ← sum_add_distrib]
    refine sum_congr rfl fun a _ => sum_congr rfl fun b _ => sum_congr rfl fun c _ => ?_
    have n1 : a = b ↔ key a = key b := hk.eq_iff.symm
    have n2 : a = c ↔ key a = key c := hk.eq_iff.symm
    have n3 : b = c ↔ key b = key c := hk.eq_iff.symm
    simp only [ne_eq, n1, n2, n3]
    generalize f a b c = v
    by_cases q : ¬key a = key b ∧ ¬key a = key c ∧ ¬key b = key c
    · rw [if_pos q]
      obtain ⟨q1, q2, q3⟩ := q
      rcases Nat.lt_or_gt_of_ne q1 with h1 | h1 <;> rcases Nat.lt_or_gt_of_ne q3 with h2 | h2 <;>
        rcases Nat.lt_or_gt_of_ne q2 with h3 | h3 <;>
        first
        | (exfalso; omega)
        | simp [h1, h2, h3, h1.not_gt, h2.not_gt, h3.not_gt]
    · rw [if_neg q, if_neg (by omega), if_neg (by omega), if_neg (by omega), if_neg (by omega), if_neg (by omega),
        if_neg (by omega)]
      simp
  have e1 : (∑ a, ∑ b, ∑ c, if key c < key a ∧ key b < key c then f a b c else 0) = O :=
    sw23 (fun a b c => key c < key a ∧ key b < key c)
  have e2 : (∑ a, ∑ b, ∑ c, if key a < key b ∧ key c < key a then f a b c else 0) = O :=
    sw12 (fun a b c => key a < key b ∧ key c < key a)
  have e3 : (∑ a, ∑ b, ∑ c, if key c < key b ∧ key a < key c then f a b c else 0) = O :=
    (sw12 (fun a b c => key c < key b ∧ key a < key c)).trans e1
  have e4 : (∑ a, ∑ b, ∑ c, if key a < key c ∧ key b < key a then f a b c else 0) = O :=
    (sw23 (fun a b c => key a < key c ∧ key b < key a)).trans e2
  have e5 : (∑ a, ∑ b, ∑ c, if key b < key c ∧ key a < key b then f a b c else 0) = O :=
    (sw12 (fun a b c => key b < key c ∧ key a < key b)).trans e4
  rw [e, e1, e2, e3, e4, e5]
  ring

/-- The second-order energy of the ground state from the cubic constants. -/
noncomputable def ground3 (w : σ → ℝ) (φ : σ → σ → σ → ℝ) : ℝ :=
  -(1 / 48) * ∑ a, ∑ b, ∑ c, φ a b c ^ 2 / (w a + w b + w c) - 1 / 32 * ∑ m, (∑ i, φ i i m) ^ 2 / w m

theorem ground_value {φ : σ → σ → σ → ℝ} (hφ : Sy3 φ) {w : σ → ℝ} {fr : σ → σ → σ → ℝ} {g : (σ → ℤ) → ℝ} (hg : Inv w fr g)
    (hj : ∀ j, w j ≠ 0) : -cub φ (dia g 0 (cub φ (one 0))) 0 = ground3 w φ := by
  have sq : ∀ m, (∑ i, φ i i m) ^ 2 / w m = ∑ i, ∑ j, φ i i m * φ j j m / w m := by
    intro m
    rw [pow_two, sum_mul_sum, Finset.sum_div]
    exact sum_congr rfl fun i _ => by rw [Finset.sum_div]
  have e2 : ∑ m, (∑ i, φ i i m) ^ 2 / w m = ∑ i, φ i i i ^ 2 / w i +
      D2 (fun l j => φ l l l * φ l l j / w j * 0 + 2 * (φ j j j * φ l l j / w j) + φ l l j ^ 2 / w j) +
      D3 fun l m j => φ l l j * φ m m j / w j := by
    simp only [sq]
    rw [sum3_sort fun m i j => φ i i m * φ j j m / w m]
    have c : D3 (fun m i j => φ i i m * φ j j m / w m) = D3 fun l m j => φ l l j * φ m m j / w j := by
      rw [D3_cycle, D3_cycle]
    rw [c]
    congr 2
    · exact sum_congr rfl fun i _ => by rw [pow_two]
    · refine D2_eq fun a b _ => by ring
  have e3 : ∑ a, ∑ b, ∑ c, φ a b c ^ 2 / (w a + w b + w c) = ∑ i, φ i i i ^ 2 / (3 * w i) +
      D2 (fun l j => 3 * (φ l l j ^ 2 / (2 * w l + w j))) + D3 fun l m j => φ l m j ^ 2 / (w l + w m + w j) := by
    rw [sum3_sort]
    congr 2
    · refine sum_congr rfl fun i _ => by rw [show w i + w i + w i = 3 * w i by ring]
    · refine D2_congr fun l j _ => ?_
      rw [show φ l j l = φ l l j from (hφ l j l).2, show φ j l l = φ l l j from (hφ j l l).1.trans (hφ l j l).2,
        show w l + w l + w j = 2 * w l + w j by ring, show w l + w j + w l = 2 * w l + w j by ring,
        show w j + w l + w l = 2 * w l + w j by ring]
      ring
  rw [cub_value hφ hg hj, ground3, e2, e3]
  have p1 : ∀ i, φ i i i ^ 2 * ((30 * (((0 : σ → ℤ) i : ℤ) : ℝ) ^ 2 + 30 * ((0 : σ → ℤ) i : ℤ) + 11) / (8 * w i)) =
      11 / 8 * (φ i i i ^ 2 / w i) := by
    intro i
    have := hj i
    simp only [Pi.zero_apply, Int.cast_zero]
    field_simp
    ring
  have p3 : ∀ i, φ i i i ^ 2 / (3 * w i) = 1 / 3 * (φ i i i ^ 2 / w i) := by
    intro i
    have := hj i
    field_simp
  simp only [p1, p3, ← mul_sum]
  have q2 := D2_congr (f := fun l j => 6 * φ j j j * φ l l j * (3 / 2 * ((((0 : σ → ℤ) l : ℤ) : ℝ) + 1 / 2) *
        (((0 : σ → ℤ) j : ℤ) + 1 / 2) / w j)
        + 9 * φ l l j ^ 2 * (((((0 : σ → ℤ) l : ℤ) : ℝ) + 1 / 2) ^ 2 / (2 * w j) +
      (((((((0 : σ → ℤ) l : ℤ) : ℝ) + 1) * (((0 : σ → ℤ) l : ℤ) + 2) * (((0 : σ → ℤ) j : ℤ) + 1) -
        (((0 : σ → ℤ) l : ℤ) : ℝ) * (((0 : σ → ℤ) l : ℤ) - 1) * ((0 : σ → ℤ) j : ℤ)) / (2 * w l + w j) +
       (((((0 : σ → ℤ) l : ℤ) : ℝ) + 1) * (((0 : σ → ℤ) l : ℤ) + 2) * ((0 : σ → ℤ) j : ℤ) -
        (((0 : σ → ℤ) l : ℤ) : ℝ) * (((0 : σ → ℤ) l : ℤ) - 1) * (((0 : σ → ℤ) j : ℤ) + 1)) * fr l l j) / 8)))
    (g := fun l j => 9 / 8 * (φ l l l * φ l l j / w j * 0 + 2 * (φ j j j * φ l l j / w j) + φ l l j ^ 2 / w j) +
      3 / 4 * (3 * (φ l l j ^ 2 / (2 * w l + w j)))) (by
      intro l j _
      simp only [Pi.zero_apply, Int.cast_zero]
      ring)
  have q3 := D3_congr (f := fun l m j => 9 * φ l l j * φ m m j * (((((0 : σ → ℤ) l : ℤ) : ℝ) + 1 / 2) *
        (((0 : σ → ℤ) m : ℤ) + 1 / 2) / (2 * w j))
        + 6 * φ l m j ^ 2 * (((((((0 : σ → ℤ) l : ℤ) : ℝ) + 1) * (((0 : σ → ℤ) m : ℤ) + 1) * (((0 : σ → ℤ) j : ℤ) + 1) -
          (((0 : σ → ℤ) l : ℤ) : ℝ) * ((0 : σ → ℤ) m : ℤ) * ((0 : σ → ℤ) j : ℤ)) / (w l + w m + w j) +
       ((((0 : σ → ℤ) l : ℤ) : ℝ) * (((0 : σ → ℤ) m : ℤ) + 1) * (((0 : σ → ℤ) j : ℤ) + 1) -
          ((((0 : σ → ℤ) l : ℤ) : ℝ) + 1) * ((0 : σ → ℤ) m : ℤ) * ((0 : σ → ℤ) j : ℤ)) * fr m j l +
       (((((0 : σ → ℤ) l : ℤ) : ℝ) + 1) * ((0 : σ → ℤ) m : ℤ) * (((0 : σ → ℤ) j : ℤ) + 1) -
          (((0 : σ → ℤ) l : ℤ) : ℝ) * (((0 : σ → ℤ) m : ℤ) + 1) * ((0 : σ → ℤ) j : ℤ)) * fr l j m +
       (((((0 : σ → ℤ) l : ℤ) : ℝ) + 1) * (((0 : σ → ℤ) m : ℤ) + 1) * ((0 : σ → ℤ) j : ℤ) -
          (((0 : σ → ℤ) l : ℤ) : ℝ) * ((0 : σ → ℤ) m : ℤ) * (((0 : σ → ℤ) j : ℤ) + 1)) * fr l m j) / 8))
    (g := fun l m j => 9 / 8 * (φ l l j * φ m m j / w j) + 3 / 4 * (φ l m j ^ 2 / (w l + w m + w j))) (by
      intro l m j _ _ _
      simp only [Pi.zero_apply, Int.cast_zero]
      ring)
  rw [q2, q3, D2_add, D2_smul, D2_smul, D3_add, D3_smul, D3_smul]
  ring

/-- The four fractions of a three-mode term. -/
noncomputable def four4 (x y z : ℝ) : ℝ := 1 / (x + y + z) + 1 / (x - y + z) - 1 / (x + y - z) + 1 / (-x + y + z)

/-- The four fractions of a three-mode term of the zero-point constant. -/
noncomputable def four1 (x y z : ℝ) : ℝ := -(1 / (x + y + z)) + 1 / (x - y + z) + 1 / (x + y - z) + 1 / (-x + y + z)

/-- The ground-state energy from the cubic parts of the anharmonic constants and of the zero-point constant. -/
theorem ground_form {φ : σ → σ → σ → ℝ} (hφ : Sy3 φ) {w : σ → ℝ} (hj : ∀ j, w j ≠ 0) :
    1 / 4 * ∑ k, (-∑ l, φ k k l ^ 2 * (1 / (8 * w l) + 1 / (32 * (2 * w k + w l)) - 1 / (2 * w k - w l) / 32))
      + 1 / 8 * D2 (fun k l => -∑ m, φ k k m * φ l l m / (4 * w m) - ∑ m, φ k l m ^ 2 / 8 * four4 (w k) (w l) (w m))
      + (-(7 / 576) * ∑ k, φ k k k ^ 2 / w k
      + D2 (fun a b => 3 * φ a a b ^ 2 / 128 * (1 / (2 * w a - w b) - 1 / (2 * w a + w b)))
      + 1 / 6 * D3 fun a b c => φ a b c ^ 2 / 32 * four1 (w a) (w b) (w c)) = ground3 w φ := by
  have hR : ResRel fun _ _ _ : σ => False := resRel_false
  have fr : ∀ a b c, frac w (fun _ _ _ : σ => False) a b c = 1 / (w a + w b - w c) := fun a b c => frac_no (fun h => h) _
  have g := ground_value hφ (inv_inv w hR) hj
  rw [cub_form hφ (inv_inv w hR) (frac_symm hR) (frac_off hR) hj] at g
  rw [← g]
  simp only [fr, Pi.zero_apply, Int.cast_zero, zero_add, mul_sum]
  have f4 : ∀ k l m, four4 (w k) (w l) (w m) = 1 / (w k + w l + w m) + 1 / (w k + w m - w l) - 1 / (w k + w l - w m) +
      1 / (w l + w m - w k) := fun k l m => by
    unfold four4
    rw [show w k - w l + w m = w k + w m - w l by ring, show -w k + w l + w m = w l + w m - w k by ring]
  have f1 : ∀ k l m, four1 (w k) (w l) (w m) = -(1 / (w k + w l + w m) - 1 / (w k + w m - w l) - 1 / (w k + w l - w m) -
      1 / (w l + w m - w k)) := fun k l m => by
    unfold four1
    rw [show w k - w l + w m = w k + w m - w l by ring, show -w k + w l + w m = w l + w m - w k by ring]
    ring
  simp only [f4, f1, two_mul]
  rw [← D2_smul, ← D2_smul, ← D3_smul, ← D3_smul]
  refine congrArg₂ (· + ·) (congrArg₂ (· + ·) ?_ ?_) (congrArg₂ (· + ·) rfl ?_)
  · exact sum_congr rfl fun k _ => by ring
  · exact D2_congr fun k l _ => by ring
  · exact D3_congr fun a b c _ _ _ => by ring

theorem D2_msum {ι : Type} (s : Finset ι) (f : ι → σ → σ → ℝ) : D2 (fun t u => ∑ m ∈ s, f m t u) = ∑ m ∈ s, D2 (f m) := by
  unfold D2
  have e : ∑ m ∈ s, ∑ a, ∑ b, (if a ≠ b then f m a b else 0) = ∑ a, ∑ m ∈ s, ∑ b, if a ≠ b then f m a b else 0 := sum_comm
  rw [e]
  refine sum_congr rfl fun t _ => ?_
  have e : ∑ m ∈ s, ∑ b, (if t ≠ b then f m t b else 0) = ∑ b, ∑ m ∈ s, if t ≠ b then f m t b else 0 := sum_comm
  rw [e]
  refine sum_congr rfl fun u _ => ?_
  split <;> simp

theorem inv32 (y : ℝ) : 1 / (32 * y) = 1 / y / 32 := by rw [one_div, mul_inv]; ring

end

section
variable {σ τ : Type} [Fintype σ] [DecidableEq σ] [Fintype τ] [DecidableEq τ]

/-- The terms of one non-degenerate mode, of frequency `x`. -/
theorem top_one {wt : τ → ℝ} (x A : ℝ) {b : τ → τ → ℝ} (hb : ∀ t u, b t u = b u t) (hx : x ≠ 0) :
    1 / 2 * ∑ t, (-∑ u, b t u ^ 2 / 8 * four4 x (wt t) (wt u)) + 1 / 2 * ∑ t, (-(A * b t t / (4 * x)))
      + ∑ t, (-(b t t ^ 2 * (1 / (8 * x) + 1 / (32 * (2 * wt t + x)) - 1 / (2 * wt t - x) / 32)))
      + 1 / 2 * D2 (fun t u => -(b t t * b u u / (4 * x)) - b t u ^ 2 / 16 * four4 (wt t) (wt u) x)
      + ∑ t, b t t ^ 2 / 32 * (1 / (2 * wt t - x) - 1 / (2 * wt t + x))
      + 1 / 2 * D2 (fun t u => b t u ^ 2 / 16 * four1 (wt t) (wt u) x) =
    -(1 / 8) * ∑ t, ∑ u, b t u ^ 2 / (x + wt t + wt u) - 1 / 32 * (((A + 2 * ∑ t, b t t) ^ 2 - A ^ 2) / x) := by
  have s1 : ∑ t, (-∑ u, b t u ^ 2 / 8 * four4 x (wt t) (wt u)) = ∑ t, -(b t t ^ 2 / 8 * four4 x (wt t) (wt t)) +
      D2 fun t u => -(b t u ^ 2 / 8 * four4 x (wt t) (wt u)) := by
    rw [← sum2_sort fun t u => -(b t u ^ 2 / 8 * four4 x (wt t) (wt u))]
    exact sum_congr rfl fun t _ => by rw [sum_neg_distrib]
  have s2 : ∑ t, ∑ u, b t u ^ 2 / (x + wt t + wt u) = ∑ t, b t t ^ 2 / (x + wt t + wt t) +
      D2 fun t u => b t u ^ 2 / (x + wt t + wt u) := sum2_sort fun t u => b t u ^ 2 / (x + wt t + wt u)
  have s3 : ((A + 2 * ∑ t, b t t) ^ 2 - A ^ 2) / x = ∑ t, (4 * A * b t t + 4 * b t t ^ 2) / x +
      D2 fun t u => 4 * (b t t * b u u) / x := by
    have e : (∑ t, b t t) ^ 2 = ∑ t, b t t ^ 2 + D2 fun t u => b t t * b u u := by
      rw [pow_two, sum_mul_sum, sum2_sort fun t u => b t t * b u u]
      exact congrArg (· + _) (sum_congr rfl fun t _ => by ring)
    have e1 : ∑ t, (4 * A * b t t + 4 * b t t ^ 2) / x = (4 * A / x) * ∑ t, b t t + 4 / x * ∑ t, b t t ^ 2 := by
      rw [mul_sum, mul_sum, ← sum_add_distrib]
      exact sum_congr rfl fun t _ => by ring
    have e2 : (D2 fun t u => 4 * (b t t * b u u) / x) = 4 / x * D2 fun t u => b t t * b u u := by
      rw [← D2_smul]
      exact D2_congr fun t u _ => by ring
    rw [e1, e2]
    linear_combination 4 / x * e
  rw [s1, s2, s3]
  have p1 : 1 / 2 * ∑ t, -(b t t ^ 2 / 8 * four4 x (wt t) (wt t)) + 1 / 2 * ∑ t, (-(A * b t t / (4 * x)))
      + ∑ t, (-(b t t ^ 2 * (1 / (8 * x) + 1 / (32 * (2 * wt t + x)) - 1 / (2 * wt t - x) / 32)))
      + ∑ t, b t t ^ 2 / 32 * (1 / (2 * wt t - x) - 1 / (2 * wt t + x)) =
      -(1 / 8) * ∑ t, b t t ^ 2 / (x + wt t + wt t) - 1 / 32 * ∑ t, (4 * A * b t t + 4 * b t t ^ 2) / x := by
    simp only [mul_sum, ← sum_add_distrib, ← sum_sub_distrib]
    refine sum_congr rfl fun t _ => ?_
    unfold four4
    rw [show x - wt t + wt t = x by ring, show x + wt t - wt t = x by ring, show -x + wt t + wt t = 2 * wt t - x by ring,
      show x + wt t + wt t = 2 * wt t + x by ring, inv32]
    ring
  have p2 : 1 / 2 * D2 (fun t u => -(b t u ^ 2 / 8 * four4 x (wt t) (wt u)))
      + 1 / 2 * D2 (fun t u => -(b t t * b u u / (4 * x)) - b t u ^ 2 / 16 * four4 (wt t) (wt u) x)
      + 1 / 2 * D2 (fun t u => b t u ^ 2 / 16 * four1 (wt t) (wt u) x) =
      -(1 / 8) * D2 (fun t u => b t u ^ 2 / (x + wt t + wt u)) + -(1 / 32) * D2 fun t u => 4 * (b t t * b u u) / x := by
    rw [← D2_smul, ← D2_smul, ← D2_smul, ← D2_smul, ← D2_smul, ← D2_add, ← D2_add, ← D2_add]
    refine D2_eq fun t u _ => ?_
    rw [hb u t]
    unfold four4 four1
    rw [show x + wt u + wt t = x + wt t + wt u by ring, show wt t + wt u + x = x + wt t + wt u by ring,
      show wt u + wt t + x = x + wt t + wt u by ring, show wt t - wt u + x = x + wt t - wt u by ring,
      show -wt t + wt u + x = x - wt t + wt u by ring, show wt u - wt t + x = x - wt t + wt u by ring,
      show -wt u + wt t + x = x + wt t - wt u by ring, show wt t + wt u - x = -x + wt t + wt u by ring,
      show wt u + wt t - x = -x + wt t + wt u by ring, show x - wt u + wt t = x + wt t - wt u by ring,
      show x + wt u - wt t = x - wt t + wt u by ring, show -x + wt u + wt t = -x + wt t + wt u by ring]
    ring
  linarith

/-- The terms of degenerate modes only. -/
theorem top_two {wt : τ → ℝ} {c : τ → τ → τ → ℝ} (hc : Sy3 c) (ht : ∀ t, wt t ≠ 0) :
    ∑ t, (-∑ u, c t t u ^ 2 * (1 / (8 * wt u) + 1 / (32 * (2 * wt t + wt u)) - 1 / (2 * wt t - wt u) / 32))
      + 1 / 2 * D2 (fun t u => -∑ v, c t u v ^ 2 / 8 * four4 (wt t) (wt u) (wt v))
      + ∑ t, 11 * c t t t ^ 2 / (144 * wt t)
      + D2 (fun t u => c t t u ^ 2 / 16 * (2 / wt u + 3 / 2 * (1 / (2 * wt t - wt u) - 1 / (2 * wt t + wt u))))
      + 1 / 6 * D3 (fun t u v => c t u v ^ 2 / 8 * four1 (wt t) (wt u) (wt v)) =
    -(1 / 12) * ∑ t, ∑ u, ∑ v, c t u v ^ 2 / (wt t + wt u + wt v) := by
  have s1 : ∑ t, (-∑ u, c t t u ^ 2 * (1 / (8 * wt u) + 1 / (32 * (2 * wt t + wt u)) - 1 / (2 * wt t - wt u) / 32)) =
      ∑ t, -(c t t t ^ 2 * (1 / (8 * wt t) + 1 / (32 * (2 * wt t + wt t)) - 1 / (2 * wt t - wt t) / 32)) +
      D2 fun t u => -(c t t u ^ 2 * (1 / (8 * wt u) + 1 / (32 * (2 * wt t + wt u)) - 1 / (2 * wt t - wt u) / 32)) := by
    rw [← sum2_sort fun t u => -(c t t u ^ 2 * (1 / (8 * wt u) + 1 / (32 * (2 * wt t + wt u)) - 1 / (2 * wt t - wt u) / 32))]
    exact sum_congr rfl fun t _ => by rw [sum_neg_distrib]
  have s2 : D2 (fun t u => -∑ v, c t u v ^ 2 / 8 * four4 (wt t) (wt u) (wt v)) =
      D2 (fun t u => -(c t u t ^ 2 / 8 * four4 (wt t) (wt u) (wt t)) + -(c t u u ^ 2 / 8 * four4 (wt t) (wt u) (wt u))) +
      D3 fun t u v => -(c t u v ^ 2 / 8 * four4 (wt t) (wt u) (wt v)) := by
    rw [← D2_sum fun t u v => -(c t u v ^ 2 / 8 * four4 (wt t) (wt u) (wt v))]
    exact D2_congr fun t u _ => by rw [sum_neg_distrib]
  have s3 := sum3_sort fun t u v => c t u v ^ 2 / (wt t + wt u + wt v)
  rw [s1, s2, s3]
  have p1 : ∑ t, -(c t t t ^ 2 * (1 / (8 * wt t) + 1 / (32 * (2 * wt t + wt t)) - 1 / (2 * wt t - wt t) / 32)) +
      ∑ t, 11 * c t t t ^ 2 / (144 * wt t) = -(1 / 12) * ∑ t, c t t t ^ 2 / (wt t + wt t + wt t) := by
    simp only [mul_sum, ← sum_add_distrib]
    refine sum_congr rfl fun t _ => ?_
    have := ht t
    rw [show 2 * wt t + wt t = 3 * wt t by ring, show 2 * wt t - wt t = wt t by ring, show wt t + wt t + wt t = 3 * wt t by ring]
    field_simp
    ring
  have p2 : D2 (fun t u => -(c t t u ^ 2 * (1 / (8 * wt u) + 1 / (32 * (2 * wt t + wt u)) - 1 / (2 * wt t - wt u) / 32)))
      + 1 / 2 * D2 (fun t u => -(c t u t ^ 2 / 8 * four4 (wt t) (wt u) (wt t)) + -(c t u u ^ 2 / 8 * four4 (wt t) (wt u) (wt u)))
      + D2 (fun t u => c t t u ^ 2 / 16 * (2 / wt u + 3 / 2 * (1 / (2 * wt t - wt u) - 1 / (2 * wt t + wt u)))) =
      -(1 / 12) * D2 fun l j => c l l j ^ 2 / (wt l + wt l + wt j) + c l j l ^ 2 / (wt l + wt j + wt l) +
        c j l l ^ 2 / (wt j + wt l + wt l) := by
    rw [← D2_smul, ← D2_smul, ← D2_add, ← D2_add]
    refine D2_eq fun t u _ => ?_
    rw [show c t u t = c t t u from (hc t u t).2, show c u t t = c t t u from (hc u t t).1.trans (hc t u t).2,
      show c u t u = c u u t from (hc u t u).2, show c t u u = c u u t from (hc t u u).1.trans (hc u t u).2]
    unfold four4
    rw [show wt t + wt u + wt t = 2 * wt t + wt u by ring, show wt t - wt u + wt t = 2 * wt t - wt u by ring,
      show wt t + wt u - wt t = wt u by ring, show -wt t + wt u + wt t = wt u by ring,
      show wt t + wt u + wt u = 2 * wt u + wt t by ring, show wt t - wt u + wt u = wt t by ring,
      show wt t + wt u - wt u = wt t by ring, show -wt t + wt u + wt u = 2 * wt u - wt t by ring,
      show wt u + wt t + wt u = 2 * wt u + wt t by ring, show wt u - wt t + wt u = 2 * wt u - wt t by ring,
      show wt u + wt t - wt u = wt t by ring, show -wt u + wt t + wt u = wt t by ring,
      show wt u + wt t + wt t = 2 * wt t + wt u by ring, show wt u - wt t + wt t = wt u by ring,
      show wt u + wt t - wt t = wt u by ring, show -wt u + wt t + wt t = 2 * wt t - wt u by ring,
      show wt t + wt t + wt u = 2 * wt t + wt u by ring, show wt u + wt u + wt t = 2 * wt u + wt t by ring, inv32,
      inv32]
    ring
  have p3 : 1 / 2 * D3 (fun t u v => -(c t u v ^ 2 / 8 * four4 (wt t) (wt u) (wt v)))
      + 1 / 6 * D3 (fun t u v => c t u v ^ 2 / 8 * four1 (wt t) (wt u) (wt v)) =
      -(1 / 12) * D3 fun t u v => c t u v ^ 2 / (wt t + wt u + wt v) := by
    rw [← D3_smul, ← D3_smul, ← D3_smul, ← D3_add]
    refine D3_eq fun t u v _ _ _ => ?_
    rw [show c u v t = c t u v from (hc u v t).2.trans (hc u t v).1, show c v t u = c t u v from (hc v t u).1.trans (hc t v u).2]
    unfold four4 four1
    rw [show wt u + wt v + wt t = wt t + wt u + wt v by ring, show wt v + wt t + wt u = wt t + wt u + wt v by ring,
      show wt u - wt v + wt t = wt t + wt u - wt v by ring, show wt u + wt v - wt t = -wt t + wt u + wt v by ring,
      show -wt u + wt v + wt t = wt t - wt u + wt v by ring, show wt v - wt t + wt u = -wt t + wt u + wt v by ring,
      show wt v + wt t - wt u = wt t - wt u + wt v by ring, show -wt v + wt t + wt u = wt t + wt u - wt v by ring]
    ring
  linarith

theorem top_ground {wo : σ → ℝ} {wt : τ → ℝ} (A : σ → ℝ) {b : σ → τ → τ → ℝ} {c : τ → τ → τ → ℝ}
    (hb : ∀ k t u, b k t u = b k u t) (hc : Sy3 c) (ho : ∀ k, wo k ≠ 0) (ht : ∀ t, wt t ≠ 0) :
    1 / 2 * ∑ k, ∑ t, (-∑ u, b k t u ^ 2 / 8 * four4 (wo k) (wt t) (wt u))
      + 1 / 2 * ∑ m, ∑ t, (-(A m * b m t t / (4 * wo m)))
      + ∑ t, (-∑ l, b l t t ^ 2 * (1 / (8 * wo l) + 1 / (32 * (2 * wt t + wo l)) - 1 / (2 * wt t - wo l) / 32)
        - ∑ u, c t t u ^ 2 * (1 / (8 * wt u) + 1 / (32 * (2 * wt t + wt u)) - 1 / (2 * wt t - wt u) / 32))
      + 1 / 2 * D2 (fun t u => -∑ m, b m t t * b m u u / (4 * wo m) - ∑ m, b m t u ^ 2 / 16 * four4 (wt t) (wt u) (wo m)
        - ∑ v, c t u v ^ 2 / 8 * four4 (wt t) (wt u) (wt v))
      + (∑ t, 11 * c t t t ^ 2 / (144 * wt t) + ∑ t, ∑ l, b l t t ^ 2 / 32 * (1 / (2 * wt t - wo l) - 1 / (2 * wt t + wo l)))
      + (D2 (fun t u => c t t u ^ 2 / 16 * (2 / wt u + 3 / 2 * (1 / (2 * wt t - wt u) - 1 / (2 * wt t + wt u))))
        + 1 / 2 * D2 (fun t u => ∑ m, b m t u ^ 2 / 16 * four1 (wt t) (wt u) (wo m))
        + 1 / 6 * D3 (fun t u v => c t u v ^ 2 / 8 * four1 (wt t) (wt u) (wt v))) =
    -(1 / 48) * (6 * ∑ k, ∑ t, ∑ u, b k t u ^ 2 / (wo k + wt t + wt u) + 4 * ∑ t, ∑ u, ∑ v, c t u v ^ 2 / (wt t + wt u + wt v))
      - 1 / 32 * ∑ m, ((A m + 2 * ∑ t, b m t t) ^ 2 - A m ^ 2) / wo m := by
  have e1 := fun m => top_one (wt := wt) (wo m) (A m) (hb m) (ho m)
  have e1 := sum_congr rfl fun m (_ : m ∈ (univ : Finset σ)) => e1 m
  simp only [sum_add_distrib, sum_sub_distrib, ← mul_sum] at e1
  have e2 := top_two hc ht
  have c1 : ∑ t, (-∑ l, b l t t ^ 2 * (1 / (8 * wo l) + 1 / (32 * (2 * wt t + wo l)) - 1 / (2 * wt t - wo l) / 32)
        - ∑ u, c t t u ^ 2 * (1 / (8 * wt u) + 1 / (32 * (2 * wt t + wt u)) - 1 / (2 * wt t - wt u) / 32)) =
      ∑ l, ∑ t, (-(b l t t ^ 2 * (1 / (8 * wo l) + 1 / (32 * (2 * wt t + wo l)) - 1 / (2 * wt t - wo l) / 32))) +
      ∑ t, (-∑ u, c t t u ^ 2 * (1 / (8 * wt u) + 1 / (32 * (2 * wt t + wt u)) - 1 / (2 * wt t - wt u) / 32)) := by
    rw [sum_comm, ← sum_add_distrib]
    exact sum_congr rfl fun t _ => by rw [sum_neg_distrib, sub_eq_add_neg]
  have c2 : D2 (fun t u => -∑ m, b m t t * b m u u / (4 * wo m) - ∑ m, b m t u ^ 2 / 16 * four4 (wt t) (wt u) (wo m)
        - ∑ v, c t u v ^ 2 / 8 * four4 (wt t) (wt u) (wt v)) =
      ∑ m, D2 (fun t u => -(b m t t * b m u u / (4 * wo m)) - b m t u ^ 2 / 16 * four4 (wt t) (wt u) (wo m)) +
      D2 (fun t u => -∑ v, c t u v ^ 2 / 8 * four4 (wt t) (wt u) (wt v)) := by
    rw [← D2_msum, ← D2_add]
    exact D2_congr fun t u _ => by rw [sum_sub_distrib, sum_neg_distrib, ← sub_eq_add_neg]
  have c3 : ∑ t, ∑ l, b l t t ^ 2 / 32 * (1 / (2 * wt t - wo l) - 1 / (2 * wt t + wo l)) =
      ∑ l, ∑ t, b l t t ^ 2 / 32 * (1 / (2 * wt t - wo l) - 1 / (2 * wt t + wo l)) := sum_comm
  rw [c1, c2, c3, D2_msum]
  linear_combination e1 + e2

end

end Verif.Osc
