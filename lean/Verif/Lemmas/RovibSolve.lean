import Verif.Lemmas.RovibLadder
import Verif.Lemmas.HermiteSolve
import Verif.Spec.Rovib

/-!
# Solving the perturbation equations of vibration and rotation

Helpers for C103.
-/

namespace Verif.Osc

open Finset

section
variable {σ : Type} [Fintype σ] [DecidableEq σ]

theorem q1_local {w : σ → ℝ} (hw : ∀ i, w i ≠ 0) (n : σ → ℤ) {f g : (σ → ℤ) → ℝ} (h : ∀ m, gap w n m ≠ 0 → f m = g m)
    (a : σ) : q a f n = q a g n := by
  have key : ∀ x : ℤ, (x = 1 ∨ x = -1) → f (n + x • unit a) = g (n + x • unit a) := by
    intro x hx
    apply h
    rw [gap_add, gap_self, zero_add]
    have h1 := hw a
    rcases hx with rfl | rfl <;> push_cast <;> intro hc <;> apply h1 <;> linarith
  have p : ∀ m : σ → ℤ, ∀ i : σ, m + unit i = m + (1 : ℤ) • unit i := fun m i => by rw [one_smul]
  have s : ∀ m : σ → ℤ, ∀ i : σ, m - unit i = m + (-1 : ℤ) • unit i := fun m i => by rw [neg_one_smul, sub_eq_add_neg]
  simp only [q_apply, p, s]
  rw [key 1 (by simp), key (-1) (by simp)]

theorem qd_local {w : σ → ℝ} (hp : ∀ i, 0 < w i) (n : σ → ℤ) {f g : (σ → ℤ) → ℝ}
    (h : ∀ m, gap w n m ≠ 0 → f m = g m) (hneg : ∀ m v, m v < 0 → f m = g m) {a b : σ} (hab : a ≠ b)
    (hd : w a ≠ w b ∨ (n a = 0 ∧ n b = 0)) :
    q a (d b f) n = q a (d b g) n := by
  rcases hd with hd | ⟨na, nb⟩
  swap
  · have hb : f (n + unit a + unit b) = g (n + unit a + unit b) := by
      apply h
      have h1 := hp a
      have h2 := hp b
      rw [← one_smul ℤ (unit a), ← one_smul ℤ (unit b), gap_add, gap_add, gap_self]
      push_cast
      linarith
    have u1 : unit a a = 1 := by simp [unit]
    have u2 : unit b b = 1 := by simp [unit]
    have u3 : unit a b = 0 := by simp [unit, hab]
    have u4 : unit b a = 0 := by simp [unit, hab.symm]
    have h1 : f (n - unit a + unit b) = g (n - unit a + unit b) :=
      hneg _ a (by simp only [Pi.add_apply, Pi.sub_apply, u1, u4, na]; norm_num)
    have h2 : f (n - unit a - unit b) = g (n - unit a - unit b) :=
      hneg _ a (by simp only [Pi.sub_apply, u1, u4, na]; norm_num)
    have h3 : f (n + unit a - unit b) = g (n + unit a - unit b) :=
      hneg _ b (by simp only [Pi.add_apply, Pi.sub_apply, u2, u3, nb]; norm_num)
    simp only [q_apply, d_apply, hb, h1, h2, h3]
  have key : ∀ x y : ℤ, (x = 1 ∨ x = -1) → (y = 1 ∨ y = -1) →
      f (n + x • unit a + y • unit b) = g (n + x • unit a + y • unit b) := by
    intro x y hx hy
    apply h
    rw [gap_add, gap_add, gap_self, zero_add]
    have h1 := hp a
    have h2 := hp b
    have h3 := hd
    rcases hx with rfl | rfl <;> rcases hy with rfl | rfl <;> push_cast <;> intro hc
    · linarith
    · apply h3; linarith
    · apply h3; linarith
    · linarith
  have p : ∀ m : σ → ℤ, ∀ i : σ, m + unit i = m + (1 : ℤ) • unit i := fun m i => by rw [one_smul]
  have s : ∀ m : σ → ℤ, ∀ i : σ, m - unit i = m + (-1 : ℤ) • unit i := fun m i => by rw [neg_one_smul, sub_eq_add_neg]
  simp only [q_apply, d_apply, p, s]
  rw [key 1 1 (by simp) (by simp), key 1 (-1) (by simp) (by simp), key (-1) 1 (by simp) (by simp),
    key (-1) (-1) (by simp) (by simp)]

theorem lin_local {w : σ → ℝ} (hw : ∀ i, w i ≠ 0) (c : σ → ℝ) (n : σ → ℤ) {f g : (σ → ℤ) → ℝ}
    (h : ∀ m, gap w n m ≠ 0 → f m = g m) : lin c f n = lin c g n := by
  rw [lin_at, lin_at]
  simp only [q1_local hw n h]

theorem ang_at (w : σ → ℝ) (s : σ → σ → ℝ) (f : (σ → ℤ) → ℝ) (m : σ → ℤ) :
    ang w s f m = ∑ k, ∑ l, s k l * Real.sqrt (w l / w k) * q k (d l f) m := by
  simp only [ang, Pi.smul_apply, Finset.sum_apply, smul_eq_mul]

theorem ang_local {w : σ → ℝ} (hp : ∀ i, 0 < w i) {s : σ → σ → ℝ} (hs : ∀ k, s k k = 0)
    (n : σ → ℤ) (hd : Apart w s n) {f g : (σ → ℤ) → ℝ} (h : ∀ m, gap w n m ≠ 0 → f m = g m)
    (hneg : ∀ m v, m v < 0 → f m = g m) : ang w s f n = ang w s g n := by
  rw [ang_at, ang_at]
  refine sum_congr rfl fun k _ => sum_congr rfl fun l _ => ?_
  by_cases hkl : k = l
  · rw [hkl, hs]; ring
  · by_cases h0 : s k l = 0
    · rw [h0]; ring
    · rw [qd_local hp n h hneg hkl ((hd k l hkl).imp id fun h => h.resolve_left h0)]

/-- A product of an odd number of coordinates and derivatives has no diagonal element. -/
theorem odd_total {p : σ → ZMod 2} (h : ∑ v, p v = 1) (h0 : p = 0) : False := by
  rw [h0] at h
  simp at h

theorem odd_sum (u : σ) : ∑ v, odd u v = 1 := by simp [odd]

macro "parity" h:term : tactic => `(tactic| (
  have hp := par_at $h (by assumption)
  have h3 := congrArg (fun g => ∑ v, g v) hp
  simp only [Pi.add_apply, Pi.zero_apply, Finset.sum_add_distrib, odd_sum, Finset.sum_const_zero, add_zero] at h3
  revert h3; decide))

theorem lin_diag (c : σ → ℝ) (n : σ → ℤ) : lin c (one n) n = 0 := by
  rw [lin_at]
  refine sum_eq_zero fun a _ => ?_
  have : q a (one n) n = 0 := by
    by_contra hc
    parity (par_q (par_one n) a)
  rw [this, mul_zero]

theorem ang_diag (w : σ → ℝ) {s : σ → σ → ℝ} (hs : ∀ k, s k k = 0) (n : σ → ℤ) : ang w s (one n) n = 0 := by
  rw [ang_at]
  refine sum_eq_zero fun k _ => sum_eq_zero fun l _ => ?_
  by_cases hkl : k = l
  · rw [hkl, hs]; ring
  · have : q k (d l (one n)) n = 0 := by
      by_contra hc
      have := par_at (par_q (par_d (par_one n) l) k) hc
      rw [add_zero] at this
      exact hkl (odd_add_zero this)
    rw [this, mul_zero]

theorem cub_ang (w : σ → ℝ) (φ : σ → σ → σ → ℝ) (s : σ → σ → ℝ) (n : σ → ℤ) :
    cub φ (res w n (ang w s (one n))) n = 0 := by
  rw [cub_at]
  simp only [ang, map_smul, map_sum, Pi.smul_apply, Finset.sum_apply, smul_eq_mul]
  have : ∀ a b c k l, q a (q b (q c (res w n (q k (d l (one n)))))) n = 0 := by
    intro a b c k l
    by_contra hc
    parity (par_q (par_q (par_q (par_res w (par_q (par_d (par_one n) l) k)) c) b) a)
  simp only [this, mul_zero, sum_const_zero]

theorem lin_ang (w : σ → ℝ) (c : σ → ℝ) (s : σ → σ → ℝ) (n : σ → ℤ) : lin c (res w n (ang w s (one n))) n = 0 := by
  rw [lin_at]
  simp only [ang, map_smul, map_sum, Pi.smul_apply, Finset.sum_apply, smul_eq_mul]
  have : ∀ a k l, q a (res w n (q k (d l (one n)))) n = 0 := by
    intro a k l
    by_contra hc
    parity (par_q (par_res w (par_q (par_d (par_one n) l) k)) a)
  simp only [this, mul_zero, sum_const_zero]

theorem ang_cub (w : σ → ℝ) (φ : σ → σ → σ → ℝ) (s : σ → σ → ℝ) (n : σ → ℤ) :
    ang w s (res w n (cub φ (one n))) n = 0 := by
  rw [ang_at]
  simp only [cub, map_smul, map_sum, Pi.smul_apply, Finset.sum_apply, smul_eq_mul]
  have : ∀ a b c k l, q k (d l (res w n (q a (q b (q c (one n)))))) n = 0 := by
    intro a b c k l
    by_contra hc
    parity (par_q (par_d (par_res w (par_q (par_q (par_q (par_one n) c) b) a)) l) k)
  simp only [this, mul_zero, sum_const_zero]

theorem ang_lin (w : σ → ℝ) (c : σ → ℝ) (s : σ → σ → ℝ) (n : σ → ℤ) : ang w s (res w n (lin c (one n))) n = 0 := by
  rw [ang_at]
  simp only [lin, map_smul, map_sum, Pi.smul_apply, Finset.sum_apply, smul_eq_mul]
  have : ∀ a k l, q k (d l (res w n (q a (one n)))) n = 0 := by
    intro a k l
    by_contra hc
    parity (par_q (par_d (par_res w (par_q (par_one n) a)) l) k)
  simp only [this, mul_zero, sum_const_zero]

theorem lin_ang_diag (w : σ → ℝ) (c : σ → ℝ) (s : σ → σ → ℝ) (n : σ → ℤ) : lin c (ang w s (one n)) n = 0 := by
  rw [lin_at]
  simp only [ang, map_smul, map_sum, Pi.smul_apply, Finset.sum_apply, smul_eq_mul]
  have : ∀ a k l, q a (q k (d l (one n))) n = 0 := by
    intro a k l
    by_contra hc
    parity (par_q (par_q (par_d (par_one n) l) k) a)
  simp only [this, mul_zero, sum_const_zero]

theorem cub_lins (φ : σ → σ → σ → ℝ) (f g : (σ → ℤ) → ℝ) (m : σ → ℤ) : cub φ (f + g) m = cub φ f m + cub φ g m := by
  simp only [cub_at, map_add, Pi.add_apply, mul_add, sum_add_distrib]

theorem cub_smul (φ : σ → σ → σ → ℝ) (c : ℝ) (f : (σ → ℤ) → ℝ) (m : σ → ℤ) : cub φ (c • f) m = c * cub φ f m := by
  simp only [cub_at, map_smul, Pi.smul_apply, smul_eq_mul, mul_sum]
  exact sum_congr rfl fun _ _ => sum_congr rfl fun _ _ => sum_congr rfl fun _ _ => by ring

theorem lin_lins (c : σ → ℝ) (f g : (σ → ℤ) → ℝ) (m : σ → ℤ) : lin c (f + g) m = lin c f m + lin c g m := by
  simp only [lin_at, map_add, Pi.add_apply, mul_add, sum_add_distrib]

theorem lin_smul (c : σ → ℝ) (x : ℝ) (f : (σ → ℤ) → ℝ) (m : σ → ℤ) : lin c (x • f) m = x * lin c f m := by
  simp only [lin_at, map_smul, Pi.smul_apply, smul_eq_mul, mul_sum]
  exact sum_congr rfl fun _ _ => by ring

theorem ang_lins (w : σ → ℝ) (s : σ → σ → ℝ) (f g : (σ → ℤ) → ℝ) (m : σ → ℤ) :
    ang w s (f + g) m = ang w s f m + ang w s g m := by
  simp only [ang_at, map_add, Pi.add_apply, mul_add, sum_add_distrib]

theorem ang_smul (w : σ → ℝ) (s : σ → σ → ℝ) (x : ℝ) (f : (σ → ℤ) → ℝ) (m : σ → ℤ) :
    ang w s (x • f) m = x * ang w s f m := by
  simp only [ang_at, map_smul, Pi.smul_apply, smul_eq_mul, mul_sum]
  exact sum_congr rfl fun _ _ => sum_congr rfl fun _ _ => by ring

end

variable {N : Nat}

theorem amp_linear (c : Nat → ℝ) (p : Wave N) : amp (linear c p) = lin (fun k : Fin N => c k) (amp p) := by
  unfold linear lin
  simp only [amp_smul, amp_sum, amp_coord]

theorem amp_quadratic (c : Nat → Nat → ℝ) (p : Wave N) :
    amp (quadratic c p) = quad (fun k l : Fin N => c k l) (amp p) := by
  unfold quadratic quad
  simp only [amp_smul, amp_sum, amp_coord]

theorem amp_angulars (w : Nat → ℝ) (ζ : Nat → Nat → Nat → ℝ) (c : Nat → ℝ) (p : Wave N) :
    amp (∑ a ∈ range 3, c a • angular w ζ a p) =
      ang (fun i : Fin N => w i) (fun k l : Fin N => ∑ a ∈ range 3, c a * ζ k l a) (amp p) := by
  rw [amp_sum]
  simp only [amp_smul, amp_angular, ang, smul_sum, smul_smul]
  rw [sum_comm]
  refine sum_congr rfl fun k _ => ?_
  rw [sum_comm]
  refine sum_congr rfl fun l _ => ?_
  rw [← sum_smul, sum_mul]
  simp only [mul_assoc]

/-- The first-order equations determine the first-order wave function where the energy differs. -/
theorem first_local {w : Nat → ℝ} {n : Fin N → ℤ} {f r : (Fin N → ℤ) → ℝ} {E0 : ℝ} (h0 : E0 = level w n)
    (h : ∀ m, level w m * f m + r m = E0 * f m) (m : Fin N → ℤ) (hm : gap (fun i : Fin N => w i) n m ≠ 0) :
    f m = ((-1 : ℝ) • res (fun i : Fin N => w i) n r) m := by
  rw [Pi.smul_apply, res_apply, gap_level, smul_eq_mul]
  rw [gap_level] at hm
  have := h m
  rw [h0] at this
  field_simp
  linarith

theorem neg_local {w : Nat → ℝ} {n : Fin N → ℤ} (b p : Wave N) {r : (Fin N → ℤ) → ℝ} (hr : amp p = r) (m : Fin N → ℤ)
    (v : Fin N) (hm : m v < 0) : amp b m = ((-1 : ℝ) • res (fun i : Fin N => w i) n r) m := by
  rw [amp_neg b hm, Pi.smul_apply, res_apply, ← hr, amp_neg p hm, zero_div, smul_zero]

/-- The second-order energy of a state that is not degenerate. -/
noncomputable def plain (w : Nat → ℝ) (φ : Nat → Nat → Nat → ℝ) (c : Nat → ℝ) (ζ : Nat → Nat → Nat → ℝ) (g : Nat → ℝ)
    (R2 : Wave N → Wave N) (n : Fin N → Nat) : ℝ :=
  -(cub (fun i j k : Fin N => φ i j k) (res (fun i : Fin N => w i) (toInt n)
        (cub (fun i j k : Fin N => φ i j k) (one (toInt n)))) (toInt n) +
      cub (fun i j k : Fin N => φ i j k) (res (fun i : Fin N => w i) (toInt n)
        (lin (fun i : Fin N => c i) (one (toInt n)))) (toInt n) +
      lin (fun i : Fin N => c i) (res (fun i : Fin N => w i) (toInt n)
        (cub (fun i j k : Fin N => φ i j k) (one (toInt n)))) (toInt n) +
      lin (fun i : Fin N => c i) (res (fun i : Fin N => w i) (toInt n)
        (lin (fun i : Fin N => c i) (one (toInt n)))) (toInt n)) +
    ang (fun i : Fin N => w i) (fun k l : Fin N => ∑ a ∈ range 3, g a * ζ k l a) (res (fun i : Fin N => w i) (toInt n)
      (ang (fun i : Fin N => w i) (fun k l : Fin N => ∑ a ∈ range 3, g a * ζ k l a) (one (toInt n)))) (toInt n) +
    amp (R2 (oscState n)) (toInt n)

/-- The equations for the first- and second-order wave functions and their solution. -/
theorem second_unique {w : Nat → ℝ} {φ : Nat → Nat → Nat → ℝ} {c : Nat → ℝ} {ζ : Nat → Nat → Nat → ℝ} {g : Nat → ℝ}
    {R2 S2 : Wave N → Wave N} {n : Fin N → Nat} {E0 E1 E2 : ℝ} (hw : NoRes fun i : Fin N => w i)
    (hp : ∀ i : Fin N, 0 < w i)
    (hd : Apart (fun i : Fin N => w i) (fun k l => ∑ a ∈ range 3, g a * ζ k l a) (toInt n)) (hz : ∀ a, ∀ k l : Fin N, ζ k l a = -ζ l k a)
    (h : SecondOrderC (harmonic w) (fun p => cubic φ p + linear c p)
      (fun p => ∑ a ∈ range 3, g a • angular w ζ a p) R2 S2 (oscState n) E0 E1 E2) :
    let W := fun i : Fin N => w i
    let Φ := fun i j k : Fin N => φ i j k
    let C := fun i : Fin N => c i
    let s := fun k l : Fin N => ∑ a ∈ range 3, g a * ζ k l a
    let I := one (toInt n)
    E0 = level w (toInt n) ∧ E1 = 0 ∧ E2 = -(cub Φ (res W (toInt n) (cub Φ I)) (toInt n) +
      cub Φ (res W (toInt n) (lin C I)) (toInt n) + lin C (res W (toInt n) (cub Φ I)) (toInt n) +
      lin C (res W (toInt n) (lin C I)) (toInt n)) + ang W s (res W (toInt n) (ang W s I)) (toInt n) +
      amp (R2 (oscState n)) (toInt n) := by
  intro W Φ C s I
  have hs : ∀ k, s k k = 0 := fun k => sum_eq_zero fun a _ => by
    have := hz a k k
    rw [show ζ k k a = 0 by linarith, mul_zero]
  obtain ⟨a1, b1, a2, b2, h0, h1, h1', h2, -⟩ := h
  have e0 := congrFun (congrArg amp h0) (toInt n)
  rw [amp_harmonic, amp_smul, Pi.smul_apply, amp_oscState, one_self, smul_eq_mul, mul_one, mul_one] at e0
  have f1 : ∀ m, level w m * amp a1 m + (cub Φ I m + lin C I m) = E0 * amp a1 m + E1 * I m := by
    intro m
    have := congrFun (congrArg amp h1) m
    rwa [amp_add, Pi.add_apply, amp_harmonic, amp_add, Pi.add_apply, amp_cubic, amp_linear, amp_oscState, amp_add, amp_smul,
      amp_smul, amp_oscState] at this
  have f1' : ∀ m, level w m * amp b1 m + ang W s I m = E0 * amp b1 m := by
    intro m
    have := congrFun (congrArg amp h1') m
    rwa [amp_add, Pi.add_apply, amp_harmonic, amp_angulars, amp_oscState, amp_smul] at this
  have e1 : E1 = 0 := by
    have := f1 (toInt n)
    rw [cub_diag, lin_diag, show I (toInt n) = 1 from one_self _, e0] at this
    linarith
  have l1 := first_local e0.symm (f := amp a1) (r := cub Φ I + lin C I) fun m => by
    have := f1 m
    rw [e1] at this
    simp only [Pi.add_apply]
    linarith
  have l1' := first_local e0.symm (f := amp b1) (r := ang W s I) f1'
  have n1' := neg_local (w := w) (n := toInt n) b1 (r := ang W s I) (p := ∑ a ∈ range 3, g a • angular w ζ a (oscState n)) (by
    rw [amp_angulars, amp_oscState])
  have f2 := congrFun (congrArg amp h2) (toInt n)
  rw [amp_add, Pi.add_apply, amp_add, Pi.add_apply, amp_harmonic, amp_sub, Pi.sub_apply, amp_add, Pi.add_apply, amp_cubic,
    amp_linear, amp_angulars, amp_add, amp_add, amp_smul, amp_smul, amp_smul, amp_oscState] at f2
  simp only [Pi.add_apply, Pi.smul_apply, one_self, smul_eq_mul] at f2
  rw [cub_local hw _ _ l1, lin_local (fun i => (hp i).ne') _ _ l1, ang_local hp hs _ hd l1' n1', cub_smul, lin_smul, ang_smul,
    map_add, cub_lins, lin_lins, e1, ← e0] at f2
  refine ⟨e0.symm, e1, ?_⟩
  linarith

/-- The perturbation equations have a solution if the level is not degenerate. -/
theorem second_exists {w : Nat → ℝ} {φ : Nat → Nat → Nat → ℝ} {c : Nat → ℝ} {ζ : Nat → Nat → Nat → ℝ} {g : Nat → ℝ}
    {R2 S2 : Wave N → Wave N} {n : Fin N → Nat} (hw : NoRes fun i : Fin N => w i)
    (hp : ∀ i : Fin N, 0 < w i)
    (hd : Apart (fun i : Fin N => w i) (fun k l => ∑ a ∈ range 3, g a * ζ k l a) (toInt n)) (hz : ∀ a, ∀ k l : Fin N, ζ k l a = -ζ l k a)
    (hn : ∀ m, m ≠ n → level w (toInt m) ≠ level w (toInt n)) (hS : amp (S2 (oscState n)) (toInt n) = 0) :
    ∃ E0 E1 E2, SecondOrderC (harmonic w) (fun p => cubic φ p + linear c p)
      (fun p => ∑ a ∈ range 3, g a • angular w ζ a p) R2 S2 (oscState n) E0 E1 E2 := by
  have h0 : harmonic w (oscState n) = level w (toInt n) • oscState n := by
    refine amp_injective (funext fun m => ?_)
    rw [amp_harmonic, amp_smul, amp_oscState, Pi.smul_apply, smul_eq_mul]
    by_cases h : m = toInt n
    · rw [h]
    · simp [one, h]
  have hs : ∀ k : Fin N, ∑ a ∈ range 3, g a * ζ k k a = 0 := fun k => sum_eq_zero fun a _ => by
    have := hz a k k
    rw [show ζ k k a = 0 by linarith, mul_zero]
  have neg : ∀ p : Wave N, amp (-p) = (-1 : ℝ) • amp p := fun p => by rw [← neg_one_smul ℝ p, amp_smul]
  obtain ⟨a1, h1⟩ := solve w n hn (-(cubic φ (oscState n) + linear c (oscState n))) (by
    rw [neg, Pi.smul_apply, amp_add, Pi.add_apply, amp_cubic, amp_linear, amp_oscState, cub_diag, lin_diag]; simp)
  obtain ⟨b1, h1'⟩ := solve w n hn (-(∑ a ∈ range 3, g a • angular w ζ a (oscState n))) (by
    rw [neg, Pi.smul_apply, amp_angulars, amp_oscState, ang_diag _ hs]; simp)
  have l1 := first_local (w := w) rfl (f := amp a1) (n := toInt n)
    (r := cub (fun i j k : Fin N => φ i j k) (one (toInt n)) + lin (fun i : Fin N => c i) (one (toInt n))) fun m => by
      have := congrFun (congrArg amp h1) m
      rw [amp_harmonic, amp_add, Pi.add_apply, amp_smul, neg, Pi.smul_apply, Pi.smul_apply, amp_add, amp_cubic, amp_linear,
        amp_oscState] at this
      simp only [smul_eq_mul] at this
      rw [this]
      ring
  have l1' := first_local (w := w) rfl (f := amp b1) (n := toInt n)
    (r := ang (fun i : Fin N => w i) (fun k l : Fin N => ∑ a ∈ range 3, g a * ζ k l a) (one (toInt n))) fun m => by
      have := congrFun (congrArg amp h1') m
      rw [amp_harmonic, amp_add, Pi.add_apply, amp_smul, neg, Pi.smul_apply, Pi.smul_apply, amp_angulars,
        amp_oscState] at this
      simp only [smul_eq_mul] at this
      rw [this]
      ring
  have n1 := neg_local (w := w) (n := toInt n) a1 (p := cubic φ (oscState n) + linear c (oscState n))
    (r := cub (fun i j k : Fin N => φ i j k) (one (toInt n)) + lin (fun i : Fin N => c i) (one (toInt n))) (by
      rw [amp_add, amp_cubic, amp_linear, amp_oscState])
  obtain ⟨b2, h2'⟩ := solve w n hn (-((cubic φ b1 + linear c b1 + ∑ a ∈ range 3, g a • angular w ζ a a1) +
      S2 (oscState n))) (by
    rw [neg, Pi.smul_apply, amp_add, Pi.add_apply, hS, amp_add, Pi.add_apply, amp_add, Pi.add_apply, amp_cubic, amp_linear,
      amp_angulars, cub_local hw _ _ l1', lin_local (fun i => (hp i).ne') _ _ l1', ang_local hp hs _ hd l1 n1, cub_smul,
      lin_smul, ang_smul, map_add, ang_lins, cub_ang, lin_ang, ang_cub, ang_lin]
    simp)
  let X := cubic φ a1 + linear c a1 - ∑ a ∈ range 3, g a • angular w ζ a b1 + R2 (oscState n)
  obtain ⟨a2, h2⟩ := solve w n hn (amp X (toInt n) • oscState n - X) (by
    rw [amp_sub, amp_smul, Pi.sub_apply, Pi.smul_apply, amp_oscState, one_self, smul_eq_mul, mul_one, sub_self])
  refine ⟨level w (toInt n), 0, amp X (toInt n), a1, b1, a2, b2, h0, ?_, ?_, ?_, ?_⟩
  · rw [h1, zero_smul, add_zero]; dsimp only; abel
  · rw [h1']; simp
  · rw [h2, zero_smul, add_zero]; simp only [X]; abel
  · rw [h2', zero_smul, add_zero]; dsimp only; abel

end Verif.Osc
