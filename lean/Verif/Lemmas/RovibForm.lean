import Verif.Lemmas.RovibSolve
import Verif.Lemmas.PerturbList

/-!
# The energy of vibration and rotation in the form of the reported constants

Helpers for C103.
-/

namespace Verif.Osc

open Finset

variable {N : Nat}

/-- The coefficient of `J_a J_b` in the energy to second order. -/
noncomputable def rotSecond (N : Nat) (κ : ℝ) (I : Nat → ℝ) (A : Nat → Nat → Nat → ℝ) (w : Nat → ℝ)
    (φ ζ : Nat → Nat → Nat → ℝ) (n : Nat → Nat) (a b : Nat) : ℝ :=
  (if a = b then κ / I a else 0) + ∑ k ∈ range N, (recip2 κ I w A a b k k +
    (-∑ j ∈ range N, recip1 κ I w A a b j * φ k k j / (2 * w j)) +
    ∑ l ∈ (range N).erase k, 4 * (κ / I a) * (κ / I b) * ζ k l a * ζ k l b *
      ((3 * w k ^ 2 + w l ^ 2) / (w k ^ 2 - w l ^ 2)) / (2 * w k)) * ((n k : ℝ) + 1 / 2)

theorem D2_range (f : Nat → Nat → ℝ) :
    (D2 fun k l : Fin N => f k l) = ∑ k ∈ range N, ∑ l ∈ (range N).erase k, f k l := by
  unfold D2
  rw [← Fin.sum_univ_eq_sum_range (fun k => ∑ l ∈ (range N).erase k, f k l)]
  refine sum_congr rfl fun k _ => ?_
  have : ∑ l ∈ (range N).erase k, f k l = ∑ l ∈ range N, if (k : Nat) ≠ l then f k l else 0 := by
    rw [← sum_filter]
    refine sum_congr ?_ fun _ _ => rfl
    ext l
    simp only [mem_erase, mem_filter, mem_range]
    constructor
    · rintro ⟨h1, h2⟩; exact ⟨h2, Ne.symm h1⟩
    · rintro ⟨h1, h2⟩; exact ⟨Ne.symm h2, h1⟩
  rw [this, ← Fin.sum_univ_eq_sum_range (fun l => if (k : Nat) ≠ l then f k l else 0)]
  refine sum_congr rfl fun l _ => ?_
  simp only [ne_eq, Fin.val_inj]

theorem sum9 (f : Nat → Nat → ℝ) : ∑ a ∈ range 3, ∑ b ∈ range 3, f a b = f 0 0 + f 0 1 + f 0 2 + (f 1 0 + f 1 1 + f 1 2) +
    (f 2 0 + f 2 1 + f 2 2) := by
  simp only [sum_range_succ, range_zero, sum_empty, zero_add]

/-- Two modes of the same frequency are not coupled by the rotation `J`, or hold no quanta. -/
def ApartN (N : Nat) (κ : ℝ) (I : Nat → ℝ) (w : Nat → ℝ) (ζ : Nat → Nat → Nat → ℝ) (J : Nat → ℝ) (n : Nat → Nat) : Prop :=
  ∀ i j, i < N → j < N → i ≠ j → w i ≠ w j ∨ ∑ a ∈ range 3, 2 * (κ / I a) * J a * ζ i j a = 0 ∨ (n i = 0 ∧ n j = 0)

theorem apartN_of_ne {κ : ℝ} {I w : Nat → ℝ} {ζ : Nat → Nat → Nat → ℝ} {J : Nat → ℝ} {n : Nat → Nat}
    (hd : ∀ i j, i < N → j < N → i ≠ j → w i ≠ w j) : ApartN N κ I w ζ J n :=
  fun i j hi hj hij => Or.inl (hd i j hi hj hij)

/-- The value of the second-order energy. -/
theorem rot_value {κ : ℝ} {I : Nat → ℝ} {A : Nat → Nat → Nat → ℝ} {w : Nat → ℝ} {φ : Nat → Nat → Nat → ℝ}
    {ψ : Nat → Nat → Nat → Nat → ℝ} {ζ : Nat → Nat → Nat → ℝ} (hκ : 0 ≤ κ)
    (h3 : Symm3 N φ) (h4 : Symm4 N ψ) (hz : ∀ a k l, k < N → l < N → ζ k l a = -ζ l k a) (hp : ∀ i < N, 0 < w i)
    (J : Nat → ℝ) (n : Nat → Nat) :
    plain w φ (fun k => ∑ a ∈ range 3, ∑ b ∈ range 3, recip1 κ I w A a b k * J a * J b) ζ (fun a => 2 * (κ / I a) * J a)
      (fun p => quartic ψ p + coriolis w ζ (fun a => κ / I a) p + (∑ a ∈ range 3, κ / I a * J a ^ 2) • p +
        quadratic (fun k l => ∑ a ∈ range 3, ∑ b ∈ range 3, recip2 κ I w A a b k l * J a * J b) p)
      (fun i : Fin N => n i) =
      (∑ k ∈ range N, ∑ l ∈ range (k + 1), xSpec (fun _ _ _ => False) N w φ ψ ζ (fun a => κ / I a) k l *
        ((n k : ℝ) + 1 / 2) * ((n l : ℝ) + 1 / 2)
      + e0Spec (fun _ _ _ => False) (List.range N) w φ ψ
      - 1 / 2 * ∑ k ∈ range N, ∑ l ∈ range k, ∑ a ∈ range 3, κ / I a * ζ k l a ^ 2) +
      ∑ a ∈ range 3, ∑ b ∈ range 3, rotSecond N κ I A w φ ζ n a b * J a * J b -
      κ ^ 3 * ∑ k ∈ range N, (∑ a ∈ range 3, ∑ b ∈ range 3, A k a b / (I a * I b) * J a * J b) ^ 2 / w k ^ 2 := by
  have hφ : Sy3 fun i j k : Fin N => φ i j k := fun i j k => h3 i j k i.2 j.2 k.2
  have hp' : ∀ i : Fin N, 0 < w i := fun i => hp i i.2
  have hζ : ∀ a (k l : Fin N), ζ k l a = -ζ l k a := fun a k l => hz a k l k.2 l.2
  unfold plain
  rw [← vib_value h3 h4 hz hp n, lin_value _ (fun i => (hp' i).ne'), cub_lin _ hφ (fun i => (hp' i).ne'),
    lin_cub _ hφ (fun i => (hp' i).ne'), ang_second _ hp' (fun k l => by
      rw [← sum_neg_distrib]
      exact sum_congr rfl fun a _ => by rw [hζ a k l]; ring)]
  rw [amp_add, Pi.add_apply, amp_add, Pi.add_apply, amp_h2, amp_smul, amp_quadratic, amp_oscState, quad_value, Pi.smul_apply,
    one_self, smul_eq_mul, mul_one]
  have q1 : ∑ k : Fin N, (∑ a ∈ range 3, ∑ b ∈ range 3, recip1 κ I w A a b k * J a * J b) ^ 2 / (2 * w k) =
      κ ^ 3 * ∑ k ∈ range N, (∑ a ∈ range 3, ∑ b ∈ range 3, A k a b / (I a * I b) * J a * J b) ^ 2 / w k ^ 2 := by
    rw [← Fin.sum_univ_eq_sum_range
      (fun k => (∑ a ∈ range 3, ∑ b ∈ range 3, A k a b / (I a * I b) * J a * J b) ^ 2 / w k ^ 2), mul_sum]
    refine sum_congr rfl fun k _ => ?_
    have hs : Real.sqrt (2 * κ / w k) ^ 2 = 2 * κ / w k := Real.sq_sqrt (div_nonneg (by linarith) (hp' k).le)
    have e : ∑ a ∈ range 3, ∑ b ∈ range 3, recip1 κ I w A a b k * J a * J b =
        -κ * Real.sqrt (2 * κ / w k) * ∑ a ∈ range 3, ∑ b ∈ range 3, A k a b / (I a * I b) * J a * J b := by
      simp only [mul_sum]
      refine sum_congr rfl fun a _ => sum_congr rfl fun b _ => ?_
      unfold recip1
      ring
    rw [e, mul_pow, mul_pow, hs]
    have := (hp' k).ne'
    field_simp
  have q2 : ∑ j : Fin N, ∑ l : Fin N, (∑ a ∈ range 3, ∑ b ∈ range 3, recip1 κ I w A a b j * J a * J b) *
      (φ l l j * (((toInt fun i : Fin N => n i) l : ℝ) + 1 / 2) / (4 * w j)) = ∑ a ∈ range 3, ∑ b ∈ range 3,
      (∑ k ∈ range N, (∑ j ∈ range N, recip1 κ I w A a b j * φ k k j / (4 * w j)) * ((n k : ℝ) + 1 / 2)) * J a * J b := by
    rw [sum_comm]
    have : ∀ l : Fin N, ∑ j : Fin N, (∑ a ∈ range 3, ∑ b ∈ range 3, recip1 κ I w A a b j * J a * J b) *
        (φ l l j * (((toInt fun i : Fin N => n i) l : ℝ) + 1 / 2) / (4 * w j)) =
        ∑ j ∈ range N, (∑ a ∈ range 3, ∑ b ∈ range 3, recip1 κ I w A a b j * J a * J b) *
        (φ l l j * ((n l : ℝ) + 1 / 2) / (4 * w j)) := by
      intro l
      rw [← Fin.sum_univ_eq_sum_range (fun j => (∑ a ∈ range 3, ∑ b ∈ range 3, recip1 κ I w A a b j * J a * J b) *
        (φ l l j * ((n l : ℝ) + 1 / 2) / (4 * w j)))]
      refine sum_congr rfl fun j _ => ?_
      simp [toInt]
    rw [sum_congr rfl fun l _ => this l, Fin.sum_univ_eq_sum_range (fun l => ∑ j ∈ range N, (∑ a ∈ range 3,
      ∑ b ∈ range 3, recip1 κ I w A a b j * J a * J b) * (φ l l j * ((n l : ℝ) + 1 / 2) / (4 * w j)))]
    simp only [sum_mul]
    have sw : ∀ f : Nat → Nat → Nat → Nat → ℝ, ∑ l ∈ range N, ∑ j ∈ range N, ∑ a ∈ range 3, ∑ b ∈ range 3, f a b l j =
        ∑ a ∈ range 3, ∑ b ∈ range 3, ∑ l ∈ range N, ∑ j ∈ range N, f a b l j := by
      intro f
      simp only [sum9, sum_add_distrib]
    rw [sw]
    refine sum_congr rfl fun a _ => sum_congr rfl fun b _ => sum_congr rfl fun l _ => sum_congr rfl fun j _ => ?_
    ring
  have q3 : ∑ k : Fin N, (∑ a ∈ range 3, ∑ b ∈ range 3, recip2 κ I w A a b k k * J a * J b) *
      (((toInt fun i : Fin N => n i) k : ℝ) + 1 / 2) = ∑ a ∈ range 3, ∑ b ∈ range 3,
      (∑ k ∈ range N, recip2 κ I w A a b k k * ((n k : ℝ) + 1 / 2)) * J a * J b := by
    rw [sum_congr rfl (g := fun k : Fin N => (∑ a ∈ range 3, ∑ b ∈ range 3, recip2 κ I w A a b k k * J a * J b) *
      ((n k : ℝ) + 1 / 2)) (fun k _ => by simp [toInt]), Fin.sum_univ_eq_sum_range (fun k => (∑ a ∈ range 3,
      ∑ b ∈ range 3, recip2 κ I w A a b k k * J a * J b) * ((n k : ℝ) + 1 / 2))]
    simp only [sum9, sum_mul, ← sum_add_distrib]
    exact sum_congr rfl fun k _ => by ring
  have q4 : (D2 fun k l : Fin N => (∑ a ∈ range 3, 2 * (κ / I a) * J a * ζ k l a) ^ 2 *
      ((3 * w k ^ 2 + w l ^ 2) / (w k ^ 2 - w l ^ 2)) / (2 * w k) *
      (((toInt fun i : Fin N => n i) k : ℝ) + 1 / 2)) = ∑ a ∈ range 3, ∑ b ∈ range 3,
      (∑ k ∈ range N, (∑ l ∈ (range N).erase k, 4 * (κ / I a) * (κ / I b) * ζ k l a * ζ k l b *
      ((3 * w k ^ 2 + w l ^ 2) / (w k ^ 2 - w l ^ 2)) / (2 * w k)) * ((n k : ℝ) + 1 / 2)) * J a * J b := by
    rw [show (D2 fun k l : Fin N => (∑ a ∈ range 3, 2 * (κ / I a) * J a * ζ k l a) ^ 2 *
      ((3 * w k ^ 2 + w l ^ 2) / (w k ^ 2 - w l ^ 2)) / (2 * w k) * (((toInt fun i : Fin N => n i) k : ℝ) + 1 / 2)) =
      D2 fun k l : Fin N => (∑ a ∈ range 3, 2 * (κ / I a) * J a * ζ k l a) ^ 2 *
      ((3 * w k ^ 2 + w l ^ 2) / (w k ^ 2 - w l ^ 2)) / (2 * w k) * ((n k : ℝ) + 1 / 2) from
        D2_congr fun k l _ => by simp [toInt], D2_range fun k l => (∑ a ∈ range 3, 2 * (κ / I a) * J a * ζ k l a) ^ 2 *
      ((3 * w k ^ 2 + w l ^ 2) / (w k ^ 2 - w l ^ 2)) / (2 * w k) * ((n k : ℝ) + 1 / 2)]
    simp only [sum9, sum_mul, ← sum_add_distrib]
    refine sum_congr rfl fun k _ => sum_congr rfl fun l _ => ?_
    simp only [sum_range_succ, range_zero, sum_empty, zero_add]
    ring
  have q5 : ∑ a ∈ range 3, ∑ b ∈ range 3, rotSecond N κ I A w φ ζ n a b * J a * J b =
      ∑ a ∈ range 3, κ / I a * J a ^ 2 + ∑ a ∈ range 3, ∑ b ∈ range 3,
      (∑ k ∈ range N, recip2 κ I w A a b k k * ((n k : ℝ) + 1 / 2)) * J a * J b -
      2 * ∑ a ∈ range 3, ∑ b ∈ range 3,
      (∑ k ∈ range N, (∑ j ∈ range N, recip1 κ I w A a b j * φ k k j / (4 * w j)) * ((n k : ℝ) + 1 / 2)) * J a * J b +
      ∑ a ∈ range 3, ∑ b ∈ range 3,
      (∑ k ∈ range N, (∑ l ∈ (range N).erase k, 4 * (κ / I a) * (κ / I b) * ζ k l a * ζ k l b *
      ((3 * w k ^ 2 + w l ^ 2) / (w k ^ 2 - w l ^ 2)) / (2 * w k)) * ((n k : ℝ) + 1 / 2)) * J a * J b := by
    have d : ∑ a ∈ range 3, κ / I a * J a ^ 2 =
        ∑ a ∈ range 3, ∑ b ∈ range 3, (if a = b then κ / I a else 0) * J a * J b := by
      rw [sum9]
      simp only [sum_range_succ, range_zero, sum_empty, zero_add]
      norm_num
      ring
    rw [d, mul_sum]
    simp only [mul_sum (range 3), ← sum_add_distrib, ← sum_sub_distrib]
    refine sum_congr rfl fun a _ => sum_congr rfl fun b _ => ?_
    unfold rotSecond
    have e4 : ∀ k, ∑ j ∈ range N, recip1 κ I w A a b j * φ k k j / (2 * w j) =
        2 * ∑ j ∈ range N, recip1 κ I w A a b j * φ k k j / (4 * w j) := by
      intro k
      rw [mul_sum]
      exact sum_congr rfl fun j _ => by ring
    simp only [e4, add_mul, sum_add_distrib, neg_mul, sum_neg_distrib, mul_assoc (2 : ℝ), ← mul_sum]
    ring
  rw [q1, q2, q3, q4, q5, second1]
  ring


theorem rot_formula {κ : ℝ} {I : Nat → ℝ} {A : Nat → Nat → Nat → ℝ} {w : Nat → ℝ} {φ : Nat → Nat → Nat → ℝ}
    {ψ : Nat → Nat → Nat → Nat → ℝ} {ζ : Nat → Nat → Nat → ℝ} (hκ : 0 ≤ κ)
    (h3 : Symm3 N φ) (h4 : Symm4 N ψ) (hz : ∀ a k l, k < N → l < N → ζ k l a = -ζ l k a) (hp : ∀ i < N, 0 < w i)
    (hw : NoResonance N w) {J : Nat → ℝ} {n : Nat → Nat} (hd : ApartN N κ I w ζ J n) {E0 E1 E2 : ℝ}
    (h : RotEnergy κ I A w φ ψ ζ J (fun i : Fin N => n i) E0 E1 E2) :
    E0 = ∑ i ∈ range N, w i * ((n i : ℝ) + 1 / 2) ∧ E1 = 0 ∧
    E2 = (∑ k ∈ range N, ∑ l ∈ range (k + 1), xSpec (fun _ _ _ => False) N w φ ψ ζ (fun a => κ / I a) k l *
        ((n k : ℝ) + 1 / 2) * ((n l : ℝ) + 1 / 2)
      + e0Spec (fun _ _ _ => False) (List.range N) w φ ψ
      - 1 / 2 * ∑ k ∈ range N, ∑ l ∈ range k, ∑ a ∈ range 3, κ / I a * ζ k l a ^ 2) +
      ∑ a ∈ range 3, ∑ b ∈ range 3, rotSecond N κ I A w φ ζ n a b * J a * J b -
      κ ^ 3 * ∑ k ∈ range N, (∑ a ∈ range 3, ∑ b ∈ range 3, A k a b / (I a * I b) * J a * J b) ^ 2 / w k ^ 2 := by
  have hp' : ∀ i : Fin N, 0 < w i := fun i => hp i i.2
  have hd' : Apart (fun i : Fin N => w i) (fun k l => ∑ a ∈ range 3, 2 * (κ / I a) * J a * ζ k l a)
      (toInt fun i : Fin N => n i) := by
    intro i j hij
    refine (hd i j i.2 j.2 (fun e => hij (Fin.ext e))).imp id (Or.imp id ?_)
    rintro ⟨h1, h2⟩
    exact ⟨by simp [toInt, h1], by simp [toInt, h2]⟩
  have hζ : ∀ a (k l : Fin N), ζ k l a = -ζ l k a := fun a k l => hz a k l k.2 l.2
  obtain ⟨e0, e1, e2⟩ := second_unique hw.fin hp' hd' hζ h
  exact ⟨e0.trans (level_range w n), e1, e2.trans (rot_value hκ h3 h4 hz hp J n)⟩

end Verif.Osc
