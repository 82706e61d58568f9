import Verif.Rounded
import Verif.Spec.Rounding
import Verif.Lemmas.Xcalc
import Mathlib.Tactic.Linarith
import Mathlib.Tactic.Positivity
import Mathlib.Tactic.GCongr
import Mathlib.Tactic.FieldSimp

/-! Propagation of rounding errors. -/

namespace Verif

variable {u κ : ℝ} {rnd : ℝ → ℝ}

/-- What is assumed of the rounding and of the cancellation in denominators. -/
structure RoundCtx (u κ : ℝ) (rnd : ℝ → ℝ) : Prop where
  rounds : Rounds u rnd
  one_le : 1 ≤ κ
  small : κ * ((1 / (1 - u)) ^ 4 - 1) < 1

namespace RoundCtx

variable (c : RoundCtx u κ rnd)
include c

theorem u0 : 0 ≤ u := c.rounds.1
theorem u1 : 0 < 1 - u := sub_pos.2 c.rounds.2.1

theorem q1 : 1 ≤ 1 / (1 - u) := by
  rw [le_div_iff₀ c.u1]; linarith [c.u0]

theorem q_up : 1 + u ≤ 1 / (1 - u) := by
  rw [le_div_iff₀ c.u1]; nlinarith [c.u0]

theorem q41 : 0 ≤ (1 / (1 - u)) ^ 4 - 1 := sub_nonneg.2 (one_le_pow₀ c.q1)

theorem h1 : 1 ≤ 1 / (1 - κ * ((1 / (1 - u)) ^ 4 - 1)) := by
  have := mul_nonneg (zero_le_one.trans c.one_le) c.q41
  rw [le_div_iff₀ (sub_pos.2 c.small)]; linarith

theorem growth_mono {e d e' d' : Nat} (he : e ≤ e') (hd : d ≤ d') : growth u κ e d ≤ growth u κ e' d' := by
  unfold growth
  have := c.q1
  have := c.h1
  gcongr

theorem growth_one (e d : Nat) : 1 ≤ growth u κ e d := by
  have := c.growth_mono (Nat.zero_le e) (Nat.zero_le d)
  simpa [growth] using this

omit c in
theorem growth_mul (e d e' d' : Nat) : growth u κ (e + e') (d + d') = growth u κ e d * growth u κ e' d' := by
  unfold growth; ring

theorem growth_succ (e d : Nat) : (1 + u) * growth u κ e d ≤ growth u κ (e + 1) d := by
  have h := growth_mul (u := u) (κ := κ) e d 1 0
  rw [add_zero] at h
  rw [h, mul_comm]
  have : growth u κ 1 0 = 1 / (1 - u) := by simp [growth]
  rw [this]
  exact mul_le_mul_of_nonneg_left c.q_up (zero_le_one.trans (c.growth_one e d))

end RoundCtx

/-- The number `a`, computed with errors, is close to `x`, compared with `T`. -/
def Acc (u κ : ℝ) (e d : Nat) (x : ℝ) (a : Fl rnd) (T : ℝ) : Prop :=
  |a.val - x| ≤ (growth u κ e d - 1) * T ∧ |x| ≤ T

/-- The number `b` is close to `y`, compared with `y`. -/
def Rel (u κ : ℝ) (e d : Nat) (y : ℝ) (b : Fl rnd) : Prop :=
  ∃ t, b.val = y * t ∧ 1 ≤ t * growth u κ e d ∧ t ≤ growth u κ e d

section
variable (c : RoundCtx u κ rnd)
include c

theorem acc_mono {e d e' d' : Nat} {x : ℝ} {a : Fl rnd} {T T' : ℝ} (h : Acc u κ e d x a T) (he : e ≤ e') (hd : d ≤ d')
    (hT : T ≤ T') : Acc u κ e' d' x a T' := by
  refine ⟨h.1.trans ?_, h.2.trans hT⟩
  have h0 : 0 ≤ T := (abs_nonneg _).trans h.2
  have := c.growth_mono he hd
  have := c.growth_one e d
  gcongr
  linarith

theorem acc_exact (a : Fl rnd) (x T : ℝ) (hx : a.val = x) (hT : |x| = T) : Acc u κ 0 0 x a T := by
  refine ⟨?_, hT.le⟩
  rw [hx]; simp [growth]

theorem acc_round {e d e' : Nat} {x y T : ℝ} (h : |y - x| ≤ (growth u κ e d - 1) * T) (hx : |x| ≤ T) (he : e < e') :
    Acc u κ e' d x (⟨rnd y⟩ : Fl rnd) T := by
  refine acc_mono c (e := e + 1) (d := d) ⟨?_, hx⟩ he le_rfl le_rfl
  have hT : 0 ≤ T := (abs_nonneg _).trans hx
  have h1 := c.rounds.2.2 y
  have h2 : |y| ≤ growth u κ e d * T := by
    have : |y| ≤ |y - x| + |x| := by simpa using abs_add_le (y - x) x
    linarith
  have h3 : |rnd y - x| ≤ |rnd y - y| + |y - x| := abs_sub_le _ _ _
  have h4 := mul_le_mul_of_nonneg_left h2 c.u0
  have h5 := mul_le_mul_of_nonneg_right (c.growth_succ e d) hT
  show |rnd y - x| ≤ _
  nlinarith

theorem acc_lit (q : ℚ) (T : ℝ) (hT : |(q : ℝ)| = T) : Acc u κ 1 0 (Arith.lit q : ℝ) (Arith.lit q : Fl rnd) T :=
  acc_round c (e := 0) (d := 0) (by simp [growth, lit_real]) (by rw [lit_real, hT]) (by omega)

theorem acc_neg {e d : Nat} {x : ℝ} {a : Fl rnd} {T : ℝ} (h : Acc u κ e d x a T) : Acc u κ e d (-x) (-a) T := by
  refine ⟨?_, by rw [abs_neg]; exact h.2⟩
  have : (-a).val - -x = -(a.val - x) := by show -a.val - -x = _; ring
  rw [this, abs_neg]
  exact h.1

theorem acc_add {e d e1 d1 e2 d2 : Nat} {x y : ℝ} {a b : Fl rnd} {T U : ℝ} (h1 : Acc u κ e1 d1 x a T)
    (h2 : Acc u κ e2 d2 y b U) (he1 : e1 < e) (he2 : e2 < e) (hd1 : d1 ≤ d) (hd2 : d2 ≤ d) :
    Acc u κ e d (x + y) (a + b) (T + U) := by
  have h1' := acc_mono c h1 (show e1 ≤ e - 1 by omega) hd1 le_rfl
  have h2' := acc_mono c h2 (show e2 ≤ e - 1 by omega) hd2 le_rfl
  refine acc_round c (e := e - 1) ?_ ((abs_add_le _ _).trans (add_le_add h1.2 h2.2)) (by omega)
  have : a.val + b.val - (x + y) = (a.val - x) + (b.val - y) := by ring
  rw [this]
  refine (abs_add_le _ _).trans ?_
  linarith [h1'.1, h2'.1]

theorem acc_sub {e d e1 d1 e2 d2 : Nat} {x y : ℝ} {a b : Fl rnd} {T U : ℝ} (h1 : Acc u κ e1 d1 x a T)
    (h2 : Acc u κ e2 d2 y b U) (he1 : e1 < e) (he2 : e2 < e) (hd1 : d1 ≤ d) (hd2 : d2 ≤ d) :
    Acc u κ e d (x - y) (a - b) (T + U) := by
  have h := acc_add c h1 (acc_neg c h2) he1 he2 hd1 hd2
  have e1 : a + -b = a - b := by
    show (⟨rnd (a.val + -b.val)⟩ : Fl rnd) = ⟨rnd (a.val - b.val)⟩
    rw [sub_eq_add_neg]
  rwa [e1, ← sub_eq_add_neg] at h

theorem acc_mul {e d e1 d1 e2 d2 : Nat} {x y : ℝ} {a b : Fl rnd} {T U : ℝ} (h1 : Acc u κ e1 d1 x a T)
    (h2 : Acc u κ e2 d2 y b U) (he : e1 + e2 < e) (hd : d1 + d2 ≤ d) :
    Acc u κ e d (x * y) (a * b) (T * U) := by
  have hT : 0 ≤ T := (abs_nonneg _).trans h1.2
  have hU : 0 ≤ U := (abs_nonneg _).trans h2.2
  have g1 := sub_nonneg.2 (c.growth_one e1 d1)
  have g2 := sub_nonneg.2 (c.growth_one e2 d2)
  have hx : |x * y| ≤ T * U := by rw [abs_mul]; exact mul_le_mul h1.2 h2.2 (abs_nonneg _) hT
  refine acc_mono c (acc_round c (e := e1 + e2) (d := d1 + d2) ?_ hx he) le_rfl hd le_rfl
  rw [RoundCtx.growth_mul]
  have : a.val * b.val - x * y = (a.val - x) * (b.val - y) + (a.val - x) * y + x * (b.val - y) := by ring
  rw [this]
  have k1 : |(a.val - x) * (b.val - y)| ≤ ((growth u κ e1 d1 - 1) * T) * ((growth u κ e2 d2 - 1) * U) := by
    rw [abs_mul]; exact mul_le_mul h1.1 h2.1 (abs_nonneg _) (by positivity)
  have k2 : |(a.val - x) * y| ≤ ((growth u κ e1 d1 - 1) * T) * U := by
    rw [abs_mul]; exact mul_le_mul h1.1 h2.2 (abs_nonneg _) (by positivity)
  have k3 : |x * (b.val - y)| ≤ T * ((growth u κ e2 d2 - 1) * U) := by
    rw [abs_mul]; exact mul_le_mul h1.2 h2.1 (abs_nonneg _) hT
  have k4 := abs_add_three ((a.val - x) * (b.val - y)) ((a.val - x) * y) (x * (b.val - y))
  nlinarith

theorem acc_sq {e d e1 d1 : Nat} {x : ℝ} {a : Fl rnd} {T : ℝ} (h1 : Acc u κ e1 d1 x a T) (he : e1 + e1 < e)
    (hd : d1 + d1 ≤ d) : Acc u κ e d (sq x) (sq a) (T * T) := acc_mul c h1 h1 he hd

theorem rel_bounds {e d : Nat} {y : ℝ} {b : Fl rnd} (h : Rel u κ e d y b) :
    ∃ t, b.val = y * t ∧ 0 < t ∧ 1 ≤ t * growth u κ e d ∧ t ≤ growth u κ e d ∧ |1 / t - 1| ≤ growth u κ e d - 1 ∧
      1 / t ≤ growth u κ e d := by
  obtain ⟨t, h0, h1, h2⟩ := h
  have hg := c.growth_one e d
  have ht : 0 < t := by
    by_contra hn
    have := mul_nonneg (neg_nonneg.2 (not_lt.1 hn)) (zero_le_one.trans hg)
    linarith
  have hi : 1 / t ≤ growth u κ e d := by rw [div_le_iff₀ ht]; linarith
  refine ⟨t, h0, ht, h1, h2, abs_le.2 ⟨?_, by linarith⟩, hi⟩
  have : 1 / growth u κ e d ≤ 1 / t := one_div_le_one_div_of_le ht h2
  have h3 : 2 - growth u κ e d ≤ 1 / growth u κ e d := by
    rw [le_div_iff₀ (by linarith)]; nlinarith
  linarith

theorem acc_of_rel {e d : Nat} {y : ℝ} {b : Fl rnd} (h : Rel u κ e d y b) : Acc u κ e d y b |y| := by
  obtain ⟨t, h0, ht, h1, h2, -, -⟩ := rel_bounds c h
  refine ⟨?_, le_rfl⟩
  have hg := c.growth_one e d
  rw [h0, show y * t - y = y * (t - 1) by ring, abs_mul, mul_comm]
  refine mul_le_mul_of_nonneg_right (abs_le.2 ⟨?_, by linarith⟩) (abs_nonneg _)
  nlinarith

theorem acc_div {e d e1 d1 e2 d2 : Nat} {x y : ℝ} {a b : Fl rnd} {T U : ℝ} (h1 : Acc u κ e1 d1 x a T)
    (h2 : Rel u κ e2 d2 y b) (hU : |y| = U) (he : e1 + e2 < e) (hd : d1 + d2 ≤ d) :
    Acc u κ e d (x / y) (a / b) (T / U) := by
  obtain ⟨t, h0, ht, -, -, h3, h4⟩ := rel_bounds c h2
  have hT : 0 ≤ T := (abs_nonneg _).trans h1.2
  have g1 := sub_nonneg.2 (c.growth_one e1 d1)
  have hx : |x / y| ≤ T / U := by rw [abs_div, hU]; exact div_le_div_of_nonneg_right h1.2 (hU ▸ abs_nonneg _)
  refine acc_mono c (acc_round c (e := e1 + e2) (d := d1 + d2) ?_ hx he) le_rfl hd le_rfl
  have e1' : a.val / b.val - x / y = ((a.val - x) * (1 / t) + x * (1 / t - 1)) / y := by
    rw [h0, show a.val / (y * t) = a.val * (1 / t) / y by rw [mul_one_div, div_div, mul_comm t y]]
    ring
  rw [e1', abs_div, hU, ← mul_div_assoc (growth u κ (e1 + e2) (d1 + d2) - 1)]
  refine div_le_div_of_nonneg_right ?_ (hU ▸ abs_nonneg _)
  rw [RoundCtx.growth_mul]
  refine (abs_add_le _ _).trans ?_
  rw [abs_mul, abs_mul, abs_of_pos (show 0 < 1 / t by positivity)]
  have k1 : |a.val - x| * (1 / t) ≤ ((growth u κ e1 d1 - 1) * T) * growth u κ e2 d2 :=
    mul_le_mul h1.1 h4 (by positivity) (by positivity)
  have k2 : |x| * |1 / t - 1| ≤ T * (growth u κ e2 d2 - 1) := mul_le_mul h1.2 h3 (abs_nonneg _) hT
  nlinarith

theorem rel_mono {e d e' d' : Nat} {y : ℝ} {b : Fl rnd} (h : Rel u κ e d y b) (he : e ≤ e') (hd : d ≤ d') :
    Rel u κ e' d' y b := by
  obtain ⟨t, h0, ht, h1, h2, -, -⟩ := rel_bounds c h
  have := c.growth_mono he hd
  exact ⟨t, h0, h1.trans (mul_le_mul_of_nonneg_left this ht.le), h2.trans this⟩

omit c in
theorem rel_exact (b : Fl rnd) (y : ℝ) (h : b.val = y) : Rel u κ 0 0 y b := ⟨1, by simp [h], by simp [growth], by simp [growth]⟩

theorem rel_round {e d e' : Nat} {y t : ℝ} (_h0 : 0 < t) (h1 : 1 ≤ t * growth u κ e d) (h2 : t ≤ growth u κ e d)
    (he : e < e') : Rel u κ e' d y (⟨rnd (y * t)⟩ : Fl rnd) := by
  refine rel_mono c (e := e + 1) (d := d) ?_ he le_rfl
  obtain ⟨s, hs, s1, s2⟩ : ∃ s, rnd (y * t) = (y * t) * s ∧ 1 ≤ s * (1 / (1 - u)) ∧ s ≤ 1 + u := by
    have hr := c.rounds.2.2 (y * t)
    by_cases hz : y * t = 0
    · refine ⟨1, ?_, by rw [one_mul]; exact c.q1, by linarith [c.u0]⟩
      rw [hz] at hr ⊢
      simpa using hr
    · refine ⟨rnd (y * t) / (y * t), by rw [mul_div_cancel₀ _ hz], ?_, ?_⟩
      all_goals
        have h : |rnd (y * t) / (y * t) - 1| ≤ u := by
          rw [show rnd (y * t) / (y * t) - 1 = (rnd (y * t) - y * t) / (y * t) by
            rw [sub_div, div_self hz], abs_div, div_le_iff₀ (abs_pos.2 hz)]
          exact hr
        obtain ⟨ha, hb⟩ := abs_le.1 h
      · rw [mul_one_div, le_div_iff₀ c.u1]; linarith
      · linarith
  have hs0 : 0 < s := by
    by_contra hn
    have := mul_nonneg (neg_nonneg.2 (not_lt.1 hn)) (zero_le_one.trans c.q1)
    linarith
  have hg : growth u κ (e + 1) d = growth u κ e d * (1 / (1 - u)) := by
    have h := RoundCtx.growth_mul (u := u) (κ := κ) e d 1 0
    rw [add_zero] at h
    rw [h]; simp [growth]
  have g0 := c.growth_one e d
  refine ⟨t * s, by show rnd (y * t) = _; rw [hs]; ring, ?_, ?_⟩
  · rw [hg, show t * s * (growth u κ e d * (1 / (1 - u))) = (t * growth u κ e d) * (s * (1 / (1 - u))) by ring]
    nlinarith
  · rw [hg]
    exact mul_le_mul h2 (s2.trans c.q_up) hs0.le (zero_le_one.trans g0)

theorem rel_lit (q : ℚ) : Rel u κ 1 0 (Arith.lit q : ℝ) (Arith.lit q : Fl rnd) := by
  have := rel_round c (e := 0) (d := 0) (e' := 1) (y := (q : ℝ)) (t := 1) one_pos (by simp [growth]) (by simp [growth])
    (by omega)
  rw [mul_one] at this
  exact this

omit c in
theorem rel_neg {e d : Nat} {y : ℝ} {b : Fl rnd} (h : Rel u κ e d y b) : Rel u κ e d (-y) (-b) := by
  obtain ⟨t, h0, h1, h2⟩ := h
  exact ⟨t, by show -b.val = _; rw [h0]; ring, h1, h2⟩

theorem rel_mul {e d e1 d1 e2 d2 : Nat} {x y : ℝ} {a b : Fl rnd} (h1 : Rel u κ e1 d1 x a) (h2 : Rel u κ e2 d2 y b)
    (he : e1 + e2 < e) (hd : d1 + d2 ≤ d) : Rel u κ e d (x * y) (a * b) := by
  obtain ⟨t, a0, ta, a1, a2, -, -⟩ := rel_bounds c h1
  obtain ⟨s, b0, sb, b1, b2, -, -⟩ := rel_bounds c h2
  have g1 := c.growth_one e1 d1
  have := rel_round c (e := e1 + e2) (d := d1 + d2) (y := x * y) (t := t * s) (by positivity) (by
    rw [RoundCtx.growth_mul, show t * s * (growth u κ e1 d1 * growth u κ e2 d2) =
      (t * growth u κ e1 d1) * (s * growth u κ e2 d2) by ring]
    nlinarith) (by
    rw [RoundCtx.growth_mul]
    exact mul_le_mul a2 b2 sb.le (by linarith)) he
  have e1' : a * b = (⟨rnd (x * y * (t * s))⟩ : Fl rnd) := by
    show (⟨rnd (a.val * b.val)⟩ : Fl rnd) = _
    rw [a0, b0]; congr 2; ring
  rw [e1']
  exact rel_mono c this le_rfl hd

theorem rel_add {e d e1 d1 e2 d2 : Nat} {x y : ℝ} {a b : Fl rnd} (h1 : Rel u κ e1 d1 x a) (h2 : Rel u κ e2 d2 y b)
    (hx : 0 < x) (hy : 0 < y) (he1 : e1 < e) (he2 : e2 < e) (hd1 : d1 ≤ d) (hd2 : d2 ≤ d) :
    Rel u κ e d (x + y) (a + b) := by
  obtain ⟨t, a0, ta, a1, a2, -, -⟩ := rel_bounds c (rel_mono c h1 (show e1 ≤ e - 1 by omega) hd1)
  obtain ⟨s, b0, sb, b1, b2, -, -⟩ := rel_bounds c (rel_mono c h2 (show e2 ≤ e - 1 by omega) hd2)
  have g := c.growth_one (e - 1) d
  have hxy : 0 < x + y := by positivity
  have := rel_round c (e := e - 1) (d := d) (e' := e) (y := x + y) (t := (x * t + y * s) / (x + y)) (by positivity) (by
    rw [div_mul_eq_mul_div, le_div_iff₀ hxy]
    nlinarith) (by
    rw [div_le_iff₀ hxy]
    nlinarith) (by omega)
  rw [mul_div_cancel₀ _ hxy.ne'] at this
  have e1' : a + b = (⟨rnd (x * t + y * s)⟩ : Fl rnd) := by
    show (⟨rnd (a.val + b.val)⟩ : Fl rnd) = _
    rw [a0, b0]
  rw [e1']
  exact this

/-- A denominator with cancellation. -/
theorem rel_of_acc {e : Nat} {y : ℝ} {b : Fl rnd} {T : ℝ} (h : Acc u κ e 0 y b T) (he : e ≤ 4) (hy : y ≠ 0)
    (hT : T ≤ κ * |y|) : Rel u κ 0 1 y b := by
  obtain ⟨h1, h2⟩ := acc_mono c h he le_rfl le_rfl
  have e4 : growth u κ 4 0 = (1 / (1 - u)) ^ 4 := by simp [growth]
  have e1 : growth u κ 0 1 = 1 / (1 - κ * ((1 / (1 - u)) ^ 4 - 1)) := by simp [growth]
  set η := κ * ((1 / (1 - u)) ^ 4 - 1) with hη
  have h0 : 0 ≤ η := mul_nonneg (zero_le_one.trans c.one_le) c.q41
  have hlt : 0 < 1 - η := sub_pos.2 c.small
  have hy' := abs_pos.2 hy
  have key : |b.val / y - 1| ≤ η := by
    rw [show b.val / y - 1 = (b.val - y) / y by rw [sub_div, div_self hy], abs_div, div_le_iff₀ hy']
    refine h1.trans ?_
    rw [e4]
    have := mul_le_mul_of_nonneg_left hT c.q41
    rw [hη]; linarith
  obtain ⟨ka, kb⟩ := abs_le.1 key
  refine ⟨b.val / y, by rw [mul_div_cancel₀ _ hy], ?_, ?_⟩
  · rw [e1, mul_one_div, le_div_iff₀ hlt]; linarith
  · rw [e1, le_div_iff₀ hlt]; nlinarith

omit c in
/-- A loop over `0..n`. -/
theorem acc_foldl {d e : Nat} (n : Nat) (fR : ℝ → Nat → ℝ) (fF : Fl rnd → Nat → Fl rnd) (T : Nat → ℝ)
    (step : ∀ l < n, ∀ e' v a V, e ≤ e' → Acc u κ e' d v a V → Acc u κ (e' + 1) d (fR v l) (fF a l) (V + T l))
    {v : ℝ} {a : Fl rnd} {V : ℝ} (h : Acc u κ e d v a V) :
    Acc u κ (e + n) d ((List.range n).foldl fR v) ((List.range n).foldl fF a) (V + ∑ l ∈ Finset.range n, T l) := by
  induction n with
  | zero => simpa using h
  | succ n ih =>
    rw [List.range_succ, List.foldl_append, List.foldl_append, Finset.sum_range_succ, ← add_assoc, ← add_assoc]
    exact step n (by omega) _ _ _ _ (by omega) (ih fun l hl => step l (by omega))

end

end Verif
