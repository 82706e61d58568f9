import Verif.Spec.Equivalent
import Verif.Spec.Normal
import Verif.Spec.Run
import Mathlib.Algebra.BigOperators.Ring.Finset
import Mathlib.Algebra.Order.BigOperators.Group.Finset
import Mathlib.Tactic.Ring
import Mathlib.Tactic.Linarith
import Mathlib.Tactic.LinearCombination
import Mathlib.Tactic.IntervalCases

/-!
# Displacements brought along by symmetry operations
-/

namespace Verif

open Finset

theorem carried_at (π : Nat → Nat) (M : Nat → Nat → ℝ) (u : Nat → ℝ) (a c : Nat) (hc : c < 3) :
    brought π M u (3 * a + c) = M c 0 * u (3 * π a) + M c 1 * u (3 * π a + 1) + M c 2 * u (3 * π a + 2) := by
  unfold brought
  rw [show (3 * a + c) % 3 = c by omega, show (3 * a + c) / 3 = a by omega]
  simp only [sum_range_succ, sum_range_zero, zero_add, add_zero]

theorem carried_sum (π : Nat → Nat) (M : Nat → Nat → ℝ) (N : Nat) (a : Nat → ℝ) (d : Nat → Nat → ℝ) (r : Nat) :
    brought π M (fun r => ∑ i ∈ range N, a i * d i r) r = ∑ i ∈ range N, a i * brought π M (d i) r := by
  unfold brought
  simp only [mul_sum]
  rw [sum_comm]
  exact sum_congr rfl fun i _ => sum_congr rfl fun x _ => by ring

theorem carried_combine {n : Nat} {π : Nat → Nat} (hπ : ∀ a < n, π a < n) (M : Nat → Nat → ℝ) {u v v' : Nat → ℝ} {a b : ℝ}
    (h : ∀ r < 3 * n, u r = a * v r + b * v' r) (r : Nat) (hr : r < 3 * n) :
    brought π M u r = a * brought π M v r + b * brought π M v' r := by
  unfold brought
  rw [mul_sum, mul_sum, ← sum_add_distrib]
  refine sum_congr rfl fun x hx => ?_
  have := mem_range.1 hx
  have := hπ (r / 3) (by omega)
  rw [h _ (by omega)]
  ring

theorem carried_same {n : Nat} {π : Nat → Nat} (hπ : ∀ a < n, π a < n) (M : Nat → Nat → ℝ) {u v : Nat → ℝ}
    (h : ∀ r < 3 * n, u r = v r) (r : Nat) (hr : r < 3 * n) : brought π M u r = brought π M v r := by
  have := carried_combine hπ M (u := u) (v := v) (v' := v) (a := 1) (b := 0) (fun r hr => by rw [h r hr]; ring) r hr
  linarith

theorem carried_weighted {n : Nat} {π : Nat → Nat} (hπ : ∀ a < n, π a < n) (M : Nat → Nat → ℝ) {f : Nat → ℝ}
    (hf : ∀ a < n, f (π a) = f a) {u v : Nat → ℝ} (h : ∀ r < 3 * n, u r = f (r / 3) * v r) (r : Nat) (hr : r < 3 * n) :
    brought π M u r = f (r / 3) * brought π M v r := by
  unfold brought
  rw [mul_sum]
  refine sum_congr rfl fun x hx => ?_
  have := mem_range.1 hx
  have := hπ (r / 3) (by omega)
  rw [h _ (by omega), show (3 * π (r / 3) + x) / 3 = π (r / 3) by omega, hf _ (by omega)]
  ring

theorem range3 (n : Nat) (f : Nat → ℝ) : ∑ r ∈ range (3 * n), f r = ∑ a ∈ range n, (f (3 * a) + f (3 * a + 1) + f (3 * a + 2)) := by
  induction n with
  | zero => simp
  | succ n ih =>
    rw [show 3 * (n + 1) = 3 * n + 3 by ring, sum_range_succ, sum_range_succ, sum_range_succ, sum_range_succ, ih]
    ring

/-- The atoms are only renamed. -/
theorem renamed {n : Nat} {π π' : Nat → Nat} (hπ : ∀ a < n, π a < n) (hπ' : ∀ a < n, π' a < n)
    (h1 : ∀ a < n, π (π' a) = a) (h2 : ∀ a < n, π' (π a) = a) (f : Nat → ℝ) :
    ∑ a ∈ range n, f (π a) = ∑ a ∈ range n, f a :=
  sum_nbij' π π' (fun a ha => mem_range.2 (hπ a (mem_range.1 ha))) (fun a ha => mem_range.2 (hπ' a (mem_range.1 ha)))
    (fun a ha => h2 a (mem_range.1 ha)) (fun a ha => h1 a (mem_range.1 ha)) fun _ _ => rfl

/-- The columns of `M` are orthonormal. -/
def Isometry3 (M : Nat → Nat → ℝ) : Prop :=
  ∀ p q, p < 3 → q < 3 → M 0 p * M 0 q + M 1 p * M 1 q + M 2 p * M 2 q = if p = q then 1 else 0

theorem massForm_carried {n : Nat} {π π' : Nat → Nat} (hπ : ∀ a < n, π a < n) (hπ' : ∀ a < n, π' a < n)
    (h1 : ∀ a < n, π (π' a) = a) (h2 : ∀ a < n, π' (π a) = a) {mass : Nat → ℝ} (hm : ∀ a < n, mass (π a) = mass a)
    {M : Nat → Nat → ℝ} (hM : Isometry3 M) (u v : Nat → ℝ) :
    massForm (3 * n) mass (brought π M u) (brought π M v) = massForm (3 * n) mass u v := by
  unfold massForm
  rw [range3, range3]
  refine Eq.trans ?_ (renamed hπ hπ' h1 h2 _)
  refine sum_congr rfl fun a ha => ?_
  have ha := mem_range.1 ha
  have e0 := carried_at π M u a 0 (by norm_num)
  have e1 := carried_at π M u a 1 (by norm_num)
  have e2 := carried_at π M u a 2 (by norm_num)
  have f0 := carried_at π M v a 0 (by norm_num)
  have f1 := carried_at π M v a 1 (by norm_num)
  have f2 := carried_at π M v a 2 (by norm_num)
  rw [add_zero] at e0 f0
  have d : ∀ b, 3 * b / 3 = b ∧ (3 * b + 1) / 3 = b ∧ (3 * b + 2) / 3 = b := fun b => by omega
  rw [(d a).1, (d a).2.1, (d a).2.2, (d (π a)).1, (d (π a)).2.1, (d (π a)).2.2, hm a ha, e0, e1, e2, f0, f1, f2]
  have m00 := hM 0 0 (by norm_num) (by norm_num)
  have m11 := hM 1 1 (by norm_num) (by norm_num)
  have m22 := hM 2 2 (by norm_num) (by norm_num)
  have m01 := hM 0 1 (by norm_num) (by norm_num)
  have m02 := hM 0 2 (by norm_num) (by norm_num)
  have m12 := hM 1 2 (by norm_num) (by norm_num)
  simp only [if_true, zero_ne_one, if_false, show (0 : Nat) ≠ 2 by norm_num, show (1 : Nat) ≠ 2 by norm_num] at m00 m11 m22 m01 m02 m12
  generalize u (3 * π a) = x0, u (3 * π a + 1) = x1, u (3 * π a + 2) = x2
  generalize v (3 * π a) = y0, v (3 * π a + 1) = y1, v (3 * π a + 2) = y2
  linear_combination mass a * (x0 * y0 * m00 + x1 * y1 * m11 + x2 * y2 * m22 + (x0 * y1 + x1 * y0) * m01 +
    (x0 * y2 + x2 * y0) * m02 + (x1 * y2 + x2 * y1) * m12)

theorem root3 : Real.sqrt 3 * Real.sqrt 3 = 3 := Real.mul_self_sqrt (by norm_num)

theorem thirdTurn_isometry : Isometry3 thirdTurn := by
  intro p q hp hq
  have := root3
  interval_cases p <;> interval_cases q <;> simp [thirdTurn] <;> nlinarith

theorem flipAxes_isometry {e : ℝ} (he : e = 1 ∨ e = -1) : Isometry3 (flipAxes e) := by
  intro p q hp hq
  rcases he with rfl | rfl <;> interval_cases p <;> interval_cases q <;> simp [flipAxes]

/-- Angular momenta turn with the displacements. -/
theorem angular_turn {n : Nat} {π π' : Nat → Nat} (hπ : ∀ a < n, π a < n) (hπ' : ∀ a < n, π' a < n)
    (h1 : ∀ a < n, π (π' a) = a) (h2 : ∀ a < n, π' (π a) = a) (u v x y : Nat → ℝ)
    (hy : y 0 = -1 / 2 * x 0 - Real.sqrt 3 / 2 * x 1 ∧ y 1 = Real.sqrt 3 / 2 * x 0 - 1 / 2 * x 1 ∧ y 2 = x 2) :
    ∑ a ∈ range 3, y a * angularForm n a (brought π thirdTurn u) (brought π thirdTurn v) =
      ∑ a ∈ range 3, x a * angularForm n a u v := by
  obtain ⟨y0, y1, y2⟩ := hy
  unfold angularForm
  simp only [mul_sum]
  rw [sum_comm, sum_comm (s := range 3) (t := range n)]
  refine Eq.trans ?_ (renamed hπ hπ' h1 h2 _)
  refine sum_congr rfl fun a _ => ?_
  have e0 := carried_at π thirdTurn u a 0 (by norm_num)
  have e1 := carried_at π thirdTurn u a 1 (by norm_num)
  have e2 := carried_at π thirdTurn u a 2 (by norm_num)
  have f0 := carried_at π thirdTurn v a 0 (by norm_num)
  have f1 := carried_at π thirdTurn v a 1 (by norm_num)
  have f2 := carried_at π thirdTurn v a 2 (by norm_num)
  simp only [sum_range_succ, sum_range_zero, zero_add, Nat.reduceAdd, Nat.reduceMod, Nat.zero_mod, Nat.mod_self, e0, e1, e2, f0, f1, f2, y0,
    y1, y2]
  simp [thirdTurn]
  generalize u (3 * π a) = u0, u (3 * π a + 1) = u1, u (3 * π a + 2) = u2
  generalize v (3 * π a) = v0, v (3 * π a + 1) = v1, v (3 * π a + 2) = v2
  have := root3
  generalize Real.sqrt 3 = t at *
  linear_combination (1 / 4 * (x 0 * (u1 * v2 - u2 * v1) + x 1 * (u2 * v0 - u0 * v2) + x 2 * (u0 * v1 - u1 * v0))) * this

/-- Angular momenta under a reflection or a half-turn. -/
theorem angular_flip {n : Nat} {π π' : Nat → Nat} (hπ : ∀ a < n, π a < n) (hπ' : ∀ a < n, π' a < n)
    (h1 : ∀ a < n, π (π' a) = a) (h2 : ∀ a < n, π' (π a) = a) (u v x : Nat → ℝ) {e : ℝ} {ax : Nat}
    (he : e = 1 ∧ ax = 1 ∨ e = -1 ∧ ax = 0) :
    ∑ a ∈ range 3, (if a = ax then x a else -x a) * angularForm n a (brought π (flipAxes e) u) (brought π (flipAxes e) v) =
      ∑ a ∈ range 3, x a * angularForm n a u v := by
  unfold angularForm
  simp only [mul_sum]
  rw [sum_comm, sum_comm (s := range 3) (t := range n)]
  refine Eq.trans ?_ (renamed hπ hπ' h1 h2 _)
  refine sum_congr rfl fun a _ => ?_
  have e0 := carried_at π (flipAxes e) u a 0 (by norm_num)
  have e1 := carried_at π (flipAxes e) u a 1 (by norm_num)
  have e2 := carried_at π (flipAxes e) u a 2 (by norm_num)
  have f0 := carried_at π (flipAxes e) v a 0 (by norm_num)
  have f1 := carried_at π (flipAxes e) v a 1 (by norm_num)
  have f2 := carried_at π (flipAxes e) v a 2 (by norm_num)
  simp only [sum_range_succ, sum_range_zero, zero_add, Nat.reduceAdd, Nat.reduceMod, Nat.zero_mod, Nat.mod_self, e0, e1, e2, f0, f1, f2]
  rcases he with ⟨rfl, rfl⟩ | ⟨rfl, rfl⟩ <;> simp [flipAxes] <;> ring

/-- One operation after another. -/
def mul3 (M N : Nat → Nat → ℝ) (c d : Nat) : ℝ := M c 0 * N 0 d + M c 1 * N 1 d + M c 2 * N 2 d

theorem carried_carried (π ρ : Nat → Nat) (M N : Nat → Nat → ℝ) (u : Nat → ℝ) (r : Nat) :
    brought ρ M (brought π N u) r = brought (fun a => π (ρ a)) (mul3 M N) u r := by
  obtain ⟨a, c, hc, rfl⟩ : ∃ a c, c < 3 ∧ r = 3 * a + c := ⟨r / 3, r % 3, Nat.mod_lt _ (by norm_num), by omega⟩
  have e0 := carried_at π N u (ρ a) 0 (by norm_num)
  rw [add_zero] at e0
  rw [carried_at _ _ _ _ _ hc, carried_at _ _ _ _ _ hc, e0, carried_at π N u (ρ a) 1 (by norm_num),
    carried_at π N u (ρ a) 2 (by norm_num)]
  unfold mul3
  ring

/-- The atoms are where the operation says. -/
def Places (n : Nat) (pos : Nat → Nat → ℝ) (π : Nat → Nat) (M : Nat → Nat → ℝ) : Prop :=
  (∀ a < n, π a < n) ∧ ∀ a < n, ∀ c < 3, pos a c = M c 0 * pos (π a) 0 + M c 1 * pos (π a) 1 + M c 2 * pos (π a) 2

theorem Places.mul {n : Nat} {pos : Nat → Nat → ℝ} {π ρ : Nat → Nat} {M N : Nat → Nat → ℝ} (hρ : Places n pos ρ M)
    (hπ : Places n pos π N) : Places n pos (fun a => π (ρ a)) (mul3 M N) := by
  refine ⟨fun a ha => hπ.1 _ (hρ.1 a ha), fun a ha c hc => ?_⟩
  have h := hπ.2 (ρ a) (hρ.1 a ha)
  rw [hρ.2 a ha c hc, h 0 (by norm_num), h 1 (by norm_num), h 2 (by norm_num)]
  unfold mul3
  ring

/-- `M` leaves everything where it is. -/
def IsOne3 (M : Nat → Nat → ℝ) : Prop := ∀ c d, c < 3 → d < 3 → M c d = if c = d then 1 else 0

/-- An operation that leaves everything where it is moves no atom, if there is only one atom at each place. -/
theorem Places.one {n : Nat} {pos : Nat → Nat → ℝ} {π : Nat → Nat} {M : Nat → Nat → ℝ} (h : Places n pos π M) (h1 : IsOne3 M)
    (hd : ∀ a < n, ∀ b < n, (∀ c < 3, pos a c = pos b c) → a = b) :
    (∀ a < n, π a = a) ∧ ∀ (u : Nat → ℝ) (r : Nat), r < 3 * n → brought π M u r = u r := by
  have hπ : ∀ a < n, π a = a := by
    intro a ha
    refine (hd a ha _ (h.1 a ha) fun c hc => ?_).symm
    rw [h.2 a ha c hc, h1 c 0 hc (by norm_num), h1 c 1 hc (by norm_num), h1 c 2 hc (by norm_num)]
    interval_cases c <;> simp
  refine ⟨hπ, fun u r hr => ?_⟩
  obtain ⟨a, c, hc, rfl⟩ : ∃ a c, c < 3 ∧ r = 3 * a + c := ⟨r / 3, r % 3, Nat.mod_lt _ (by norm_num), by omega⟩
  rw [carried_at _ _ _ _ _ hc, hπ a (by omega), h1 c 0 hc (by norm_num), h1 c 1 hc (by norm_num), h1 c 2 hc (by norm_num)]
  interval_cases c <;> simp

theorem turn_cube : IsOne3 (mul3 thirdTurn (mul3 thirdTurn thirdTurn)) := by
  intro c d hc hd
  have := root3
  have t3 : Real.sqrt 3 * Real.sqrt 3 * Real.sqrt 3 = 3 * Real.sqrt 3 := by rw [root3]
  interval_cases c <;> interval_cases d <;> simp [mul3, thirdTurn] <;> nlinarith

theorem flip_square {e : ℝ} (he : e = 1 ∨ e = -1) : IsOne3 (mul3 (flipAxes e) (flipAxes e)) := by
  intro c d hc hd
  rcases he with rfl | rfl <;> interval_cases c <;> interval_cases d <;> simp [mul3, flipAxes]

theorem flip_turn {e : ℝ} (he : e = 1 ∨ e = -1) :
    IsOne3 (mul3 (flipAxes e) (mul3 thirdTurn (mul3 (flipAxes e) thirdTurn))) := by
  intro c d hc hd
  have := root3
  rcases he with rfl | rfl <;> interval_cases c <;> interval_cases d <;> simp [mul3, flipAxes, thirdTurn] <;> nlinarith

section
variable {n : Nat} {mass : Nat → ℝ} {d d1 d2 : Nat → ℝ} {C F : (Nat → ℝ) → Nat → ℝ}

/-- What is used of a symmetry operation `C` of displacements. -/
structure Op (n : Nat) (mass : Nat → ℝ) (C : (Nat → ℝ) → Nat → ℝ) : Prop where
  combine : ∀ (u v v' : Nat → ℝ) (a b : ℝ), (∀ r < n, u r = a * v r + b * v' r) → ∀ r < n, C u r = a * C v r + b * C v' r
  iso : ∀ u v, massForm n mass (C u) (C v) = massForm n mass u v

theorem mf_congr {u u' v v' : Nat → ℝ} (hu : ∀ r < n, u r = u' r) (hv : ∀ r < n, v r = v' r) :
    massForm n mass u v = massForm n mass u' v' := by
  unfold massForm
  exact sum_congr rfl fun r hr => by rw [hu r (mem_range.1 hr), hv r (mem_range.1 hr)]

theorem mf_comm (u v : Nat → ℝ) : massForm n mass u v = massForm n mass v u := by
  unfold massForm
  exact sum_congr rfl fun r _ => by ring

theorem mf_left {u v v' t : Nat → ℝ} {a b : ℝ} (h : ∀ r < n, u r = a * v r + b * v' r) :
    massForm n mass u t = a * massForm n mass v t + b * massForm n mass v' t := by
  unfold massForm
  rw [mul_sum, mul_sum, ← sum_add_distrib]
  exact sum_congr rfl fun r hr => by rw [h r (mem_range.1 hr)]; ring

theorem turn_single (hC : Op n mass C) (h3 : ∀ u, ∀ r < n, C (C (C u)) r = u r) (n1 : massForm n mass d d = 1) {a : ℝ}
    (ha : ∀ r < n, C d r = a * d r) : ∀ r < n, C d r = d r := by
  have ha' : ∀ r < n, C d r = a * d r + 0 * d r := fun r hr => by rw [ha r hr]; ring
  have e1 := hC.iso d d
  rw [mf_left ha', mf_comm d, mf_left ha', n1] at e1
  have e2 := hC.iso (C (C d)) d
  rw [mf_congr (h3 d) (fun _ _ => rfl), mf_comm d, mf_left ha', mf_left (hC.combine _ _ _ _ _ ha'), mf_left ha', n1] at e2
  have : a = 1 := by nlinarith
  intro r hr
  rw [ha r hr, this, one_mul]

theorem flip_single (hC : Op n mass C) (n1 : massForm n mass d d = 1) {a : ℝ}
    (ha : ∀ r < n, C d r = a * d r) : a = 1 ∨ a = -1 := by
  have ha' : ∀ r < n, C d r = a * d r + 0 * d r := fun r hr => by rw [ha r hr]; ring
  have e1 := hC.iso d d
  rw [mf_left ha', mf_comm d, mf_left ha', n1] at e1
  exact mul_self_eq_one_iff.1 (by linarith)

theorem turn_pair (hC : Op n mass C) (h3 : ∀ u, ∀ r < n, C (C (C u)) r = u r) (n1 : massForm n mass d1 d1 = 1)
    (n2 : massForm n mass d2 d2 = 1) (n3 : massForm n mass d1 d2 = 0) {a b c e : ℝ} (h1 : ∀ r < n, C d1 r = a * d1 r + b * d2 r)
    (h2 : ∀ r < n, C d2 r = c * d1 r + e * d2 r) (hf : ¬ ∀ r < n, C d1 r = d1 r) :
    a = -1 / 2 ∧ e = -1 / 2 ∧ c = -b ∧ b ^ 2 = 3 / 4 := by
  have n3' : massForm n mass d2 d1 = 0 := by rw [mf_comm]; exact n3
  have c1 : ∀ t, massForm n mass (C d1) t = a * massForm n mass d1 t + b * massForm n mass d2 t := fun t => mf_left h1
  have c2 : ∀ t, massForm n mass (C d2) t = c * massForm n mass d1 t + e * massForm n mass d2 t := fun t => mf_left h2
  have cc1 : ∀ t, massForm n mass (C (C d1)) t = a * massForm n mass (C d1) t + b * massForm n mass (C d2) t :=
    fun t => mf_left (hC.combine _ _ _ _ _ h1)
  have cc2 : ∀ t, massForm n mass (C (C d2)) t = c * massForm n mass (C d1) t + e * massForm n mass (C d2) t :=
    fun t => mf_left (hC.combine _ _ _ _ _ h2)
  have u11 := hC.iso d1 d1
  have u12 := hC.iso d1 d2
  have s11 := hC.iso (C (C d1)) d1
  have s12 := hC.iso (C (C d1)) d2
  have s21 := hC.iso (C (C d2)) d1
  rw [mf_congr (h3 d1) (fun _ _ => rfl), mf_comm d1] at s11 s12
  rw [mf_congr (h3 d2) (fun _ _ => rfl), mf_comm d2] at s21
  simp only [cc1, cc2, c1, c2, mf_comm d1 (C _), mf_comm d2 (C _), n1, n2, n3, n3', mul_zero, mul_one, add_zero, zero_add] at u11 u12 s11 s12 s21
  have hb : b ≠ 0 := by
    rintro rfl
    have a1 : a = 1 := by nlinarith
    exact hf fun r hr => by rw [h1 r hr, a1]; ring
  have k1 : b * (a + e) = c := by linarith
  have k2 : c * (a + e) = b := by linarith
  have k3 : (a + e) ^ 2 = 1 := by
    have : b * ((a + e) ^ 2 - 1) = 0 := by linear_combination (a + e) * k1 + k2
    rcases mul_eq_zero.1 this with h | h
    · exact absurd h hb
    · linarith
  rcases (mul_self_eq_one_iff.1 (by linarith [pow_two (a + e)]) : a + e = 1 ∨ a + e = -1) with k | k
  · rw [k] at k1
    have : b = 0 := by
      have e1 : c = b := by linarith
      rw [e1] at u12
      linear_combination u12 - b * k
    exact absurd this hb
  · rw [k] at k1
    have hc : c = -b := by linarith
    subst hc
    have q : (a - 1) * (2 * a + 1) = 0 := by linear_combination u11 - s11
    rcases mul_eq_zero.1 q with h | h
    · have : b ^ 2 = 0 := by
        have a1 : a = 1 := by linarith
        rw [a1] at u11
        linarith
      exact absurd (pow_eq_zero_iff (by norm_num) |>.1 this) hb
    · have ha : a = -1 / 2 := by linarith
      refine ⟨ha, by linarith, rfl, ?_⟩
      rw [ha] at u11
      linarith

theorem flip_pair (hC : Op n mass C) (hF : Op n mass F) (hFF : ∀ u, ∀ r < n, F (F u) r = u r)
    (hFC : ∀ u, ∀ r < n, F (C (F (C u))) r = u r) (n1 : massForm n mass d1 d1 = 1)
    (n2 : massForm n mass d2 d2 = 1) (n3 : massForm n mass d1 d2 = 0) {b : ℝ} (h1 : ∀ r < n, C d1 r = -1 / 2 * d1 r + b * d2 r)
    (h2 : ∀ r < n, C d2 r = -b * d1 r + -1 / 2 * d2 r) (hb : b ^ 2 = 3 / 4) {f g h k : ℝ}
    (f1 : ∀ r < n, F d1 r = f * d1 r + g * d2 r) (f2 : ∀ r < n, F d2 r = h * d1 r + k * d2 r) :
    h = g ∧ k = -f ∧ f ^ 2 + g ^ 2 = 1 := by
  have n3' : massForm n mass d2 d1 = 0 := by rw [mf_comm]; exact n3
  have c1 : ∀ t, massForm n mass (C d1) t = -1 / 2 * massForm n mass d1 t + b * massForm n mass d2 t := fun t => mf_left h1
  have c2 : ∀ t, massForm n mass (C d2) t = -b * massForm n mass d1 t + -1 / 2 * massForm n mass d2 t := fun t => mf_left h2
  have g1 : ∀ t, massForm n mass (F d1) t = f * massForm n mass d1 t + g * massForm n mass d2 t := fun t => mf_left f1
  have g2 : ∀ t, massForm n mass (F d2) t = h * massForm n mass d1 t + k * massForm n mass d2 t := fun t => mf_left f2
  have fc := hF.combine _ _ _ _ _ h1
  have fc' : ∀ r < n, F (C d1) r = (-1 / 2 * f + b * h) * d1 r + (-1 / 2 * g + b * k) * d2 r := fun r hr => by
    rw [fc r hr, f1 r hr, f2 r hr]; ring
  have cfc := hC.combine _ _ _ _ _ fc'
  have u11 := hF.iso d1 d1
  have s12 := hF.iso (F d1) d2
  have s := hF.iso (C (F (C d1))) d1
  rw [mf_congr (hFF d1) (fun _ _ => rfl), mf_comm d1] at s12
  rw [mf_congr (hFC d1) (fun _ _ => rfl), mf_comm d1, mf_left cfc] at s
  simp only [c1, c2, g1, g2, mf_comm d1 (F _), mf_comm d2 (F _), n1, n2, n3, n3', mul_zero, mul_one, add_zero, zero_add] at u11 s12 s
  have hg : h = g := by linarith
  subst hg
  refine ⟨rfl, ?_, by linarith⟩
  have : f = 1 / 4 * f - 3 / 4 * k := by linear_combination s + (-k) * hb
  linarith

end

end Verif
