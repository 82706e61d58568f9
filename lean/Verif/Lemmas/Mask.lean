import Verif.Lemmas.PerturbList
import Verif.Spec.Coupled

/-!
# The cubic potential without the resonant terms, on occupation numbers

Helpers for C104.
-/

namespace Verif.Osc

open Finset

section
variable {σ : Type} [Fintype σ] [DecidableEq σ]

/-- Adding a quantum. -/
def up (i : σ) (f : (σ → ℤ) → ℝ) (m : σ → ℤ) : ℝ := f (m - unit i)

/-- Taking a quantum. -/
def dn (i : σ) (f : (σ → ℤ) → ℝ) (m : σ → ℤ) : ℝ := ((m i : ℝ) + 1) * f (m + unit i)

theorem q_ladder (i : σ) (f : (σ → ℤ) → ℝ) (m : σ → ℤ) : q i f m = rt * (up i f m + dn i f m) := rfl

open Classical in
/-- The points to which a resonance leads are left out. -/
noncomputable def mask (R : σ → σ → σ → Prop) (n : σ → ℤ) (f : (σ → ℤ) → ℝ) (m : σ → ℤ) : ℝ :=
  if Shift R (m - n) then 0 else f m

open Classical in
/-- The resonant terms. -/
noncomputable def resA (R : σ → σ → σ → Prop) (φ : σ → σ → σ → ℝ) (f : (σ → ℤ) → ℝ) (n : σ → ℤ) : ℝ :=
  rt ^ 3 / 2 * ∑ i, ∑ j, ∑ k, if R i j k then φ i j k * (up i (up j (dn k f)) n + dn i (dn j (up k f)) n) else 0

theorem q3_ladder (i j k : σ) (f : (σ → ℤ) → ℝ) (n : σ → ℤ) : q i (q j (q k f)) n = rt ^ 3 *
    (up i (up j (up k f)) n + up i (up j (dn k f)) n + up i (dn j (up k f)) n + up i (dn j (dn k f)) n +
      dn i (up j (up k f)) n + dn i (up j (dn k f)) n + dn i (dn j (up k f)) n + dn i (dn j (dn k f)) n) := by
  simp only [q_ladder, up, dn]
  ring

open Classical in
/-- What masking takes from `q_i q_j q_k`. -/
theorem q3_mask {R : σ → σ → σ → Prop} (hR : ResRel R) (i j k : σ) (f : (σ → ℤ) → ℝ) (n : σ → ℤ) :
    q i (q j (q k f)) n - q i (q j (q k (mask R n f))) n = rt ^ 3 *
      ((if R i j k then up i (up j (dn k f)) n + dn i (dn j (up k f)) n else 0) +
       (if R i k j then up i (dn j (up k f)) n + dn i (up j (dn k f)) n else 0) +
       (if R j k i then dn i (up j (up k f)) n + up i (dn j (dn k f)) n else 0)) := by
  have neg1 : ∀ s : σ → ℤ, (∀ v, s v ≤ 0) → ¬ Shift R s := fun s h hs =>
    not_shift hR (s := -s) (fun v => by have := h v; simp only [Pi.neg_apply]; omega) ((shift_neg s).2 hs)
  have un : ∀ a v : σ, (0 : ℤ) ≤ unit a v := fun a v => by rw [unit_at]; split <;> omega
  have a1 : Shift R (n - unit i - unit j - unit k - n) ↔ False := iff_of_false (neg1 _ fun v => by
    have := un i v; have := un j v; have := un k v
    simp only [Pi.sub_apply]; omega) id
  have a8 : Shift R (n + unit i + unit j + unit k - n) ↔ False := iff_of_false (not_shift hR fun v => by
    have := un i v; have := un j v; have := un k v
    simp only [Pi.sub_apply, Pi.add_apply]; omega) id
  have a2 : Shift R (n - unit i - unit j + unit k - n) ↔ R i j k := by
    rw [← shift_iff hR, ← shift_neg]
    exact iff_of_eq (congrArg _ (by abel))
  have a3 : Shift R (n - unit i + unit j - unit k - n) ↔ R i k j := by
    rw [← shift_iff hR, ← shift_neg]
    exact iff_of_eq (congrArg _ (by abel))
  have a4 : Shift R (n - unit i + unit j + unit k - n) ↔ R j k i := by
    rw [← shift_iff hR]
    exact iff_of_eq (congrArg _ (by abel))
  have a5 : Shift R (n + unit i - unit j - unit k - n) ↔ R j k i := by
    rw [← shift_iff hR, ← shift_neg]
    exact iff_of_eq (congrArg _ (by abel))
  have a6 : Shift R (n + unit i - unit j + unit k - n) ↔ R i k j := by
    rw [← shift_iff hR]
    exact iff_of_eq (congrArg _ (by abel))
  have a7 : Shift R (n + unit i + unit j - unit k - n) ↔ R i j k := by
    rw [← shift_iff hR]
    exact iff_of_eq (congrArg _ (by abel))
  rw [q3_ladder, q3_ladder]
  simp only [up, dn, mask, a1, a2, a3, a4, a5, a6, a7, a8, if_false]
  by_cases h1 : R i j k <;> by_cases h2 : R i k j <;> by_cases h3 : R j k i <;>
    simp only [h1, h2, h3, if_true, if_false] <;> ring

theorem udu {i j k : σ} (h : j ≠ k) (f : (σ → ℤ) → ℝ) (n : σ → ℤ) :
    up i (dn j (up k f)) n + dn i (up j (dn k f)) n = up i (up k (dn j f)) n + dn i (dn k (up j f)) n := by
  simp only [up, dn, Pi.sub_apply, Pi.add_apply, unit_at, h, h.symm, if_false]
  rw [show n - unit i + unit j - unit k = n - unit i - unit k + unit j by abel,
    show n + unit i - unit j + unit k = n + unit i + unit k - unit j by abel]
  ring_nf

theorem duu {i j k : σ} (h : i ≠ j) (h' : i ≠ k) (f : (σ → ℤ) → ℝ) (n : σ → ℤ) :
    dn i (up j (up k f)) n + up i (dn j (dn k f)) n = up j (up k (dn i f)) n + dn j (dn k (up i f)) n := by
  simp only [up, dn, Pi.sub_apply, Pi.add_apply, unit_at, h, h.symm, h', h'.symm, if_false]
  rw [show n - unit j - unit k + unit i = n + unit i - unit j - unit k by abel,
    show n + unit j + unit k - unit i = n - unit i + unit j + unit k by abel]
  ring_nf

/-- The cubic potential without its resonant terms is the cubic potential on the other points. -/
theorem cub_mask {R : σ → σ → σ → Prop} (hR : ResRel R) {φ : σ → σ → σ → ℝ} (hφ : Sy3 φ) (f : (σ → ℤ) → ℝ) (n : σ → ℤ) :
    cub φ f n - resA R φ f n = cub φ (mask R n f) n := by
  classical
  rw [sub_eq_iff_eq_add', ← sub_eq_iff_eq_add, cub_at, cub_at, ← mul_sub]
  simp only [← sum_sub_distrib, ← mul_sub, q3_mask hR]
  let T : σ → σ → σ → ℝ := fun i j k => if R i j k then
    φ i j k * (up i (up j (dn k f)) n + dn i (dn j (up k f)) n) else 0
  have e : ∀ i j k, φ i j k * (rt ^ 3 *
      ((if R i j k then up i (up j (dn k f)) n + dn i (dn j (up k f)) n else 0) +
       (if R i k j then up i (dn j (up k f)) n + dn i (up j (dn k f)) n else 0) +
       (if R j k i then dn i (up j (up k f)) n + up i (dn j (dn k f)) n else 0))) =
      rt ^ 3 * (T i j k + T i k j + T j k i) := by
    intro i j k
    have t1 : φ i j k * (if R i j k then up i (up j (dn k f)) n + dn i (dn j (up k f)) n else 0) = T i j k := by
      simp only [T]; split <;> simp
    have t2 : φ i j k * (if R i k j then up i (dn j (up k f)) n + dn i (up j (dn k f)) n else 0) = T i k j := by
      simp only [T]
      split
      · rename_i h
        rw [udu (hR.off _ _ _ h).2, (hφ i j k).2]
      · simp
    have t3 : φ i j k * (if R j k i then dn i (up j (up k f)) n + up i (dn j (dn k f)) n else 0) = T j k i := by
      simp only [T]
      split
      · rename_i h
        rw [duu (hR.off _ _ _ h).1 (hR.off _ _ _ h).2, (hφ i j k).1, (hφ j i k).2]
      · simp
    rw [← t1, ← t2, ← t3]
    ring
  simp only [e, ← mul_sum, sum_add_distrib]
  have s2 : ∑ i, ∑ j, ∑ k, T i k j = ∑ i, ∑ j, ∑ k, T i j k := sum_congr rfl fun i _ => sum_comm
  have s3 : ∑ i, ∑ j, ∑ k, T j k i = ∑ i, ∑ j, ∑ k, T i j k := by
    rw [sum_comm]
    exact sum_congr rfl fun i _ => sum_comm
  rw [s2, s3]
  simp only [resA, T]
  ring

/-- The cubic potential looks only at points three steps away. -/
theorem cub_near (φ : σ → σ → σ → ℝ) (n : σ → ℤ) {f g : (σ → ℤ) → ℝ}
    (h : ∀ a b c, ∀ x y z : ℤ, (x = 1 ∨ x = -1) → (y = 1 ∨ y = -1) → (z = 1 ∨ z = -1) →
      f (n + x • unit a + y • unit b + z • unit c) = g (n + x • unit a + y • unit b + z • unit c)) :
    cub φ f n = cub φ g n := by
  rw [cub_at, cub_at]
  have p : ∀ m : σ → ℤ, ∀ i : σ, m + unit i = m + (1 : ℤ) • unit i := fun m i => by rw [one_smul]
  have s : ∀ m : σ → ℤ, ∀ i : σ, m - unit i = m + (-1 : ℤ) • unit i := fun m i => by rw [neg_one_smul, sub_eq_add_neg]
  have e : ∀ a b c, q a (q b (q c f)) n = q a (q b (q c g)) n := by
    intro a b c
    have key := h a b c
    simp only [q_apply, p, s]
    rw [key 1 1 1 (by simp) (by simp) (by simp), key 1 1 (-1) (by simp) (by simp) (by simp),
      key 1 (-1) 1 (by simp) (by simp) (by simp), key 1 (-1) (-1) (by simp) (by simp) (by simp),
      key (-1) 1 1 (by simp) (by simp) (by simp), key (-1) 1 (-1) (by simp) (by simp) (by simp),
      key (-1) (-1) 1 (by simp) (by simp) (by simp), key (-1) (-1) (-1) (by simp) (by simp) (by simp)]
  simp only [e]

/-- Three steps away from a state, a frequency combination vanishes only at a resonance. -/
theorem near_gap {R : σ → σ → σ → Prop} {w : σ → ℝ} (hp : ∀ i, 0 < w i)
    (hw : ∀ i j k, ¬ R i j k → w i + w j - w k ≠ 0) (n : σ → ℤ) (a b c : σ) (x y z : ℤ) (hx : x = 1 ∨ x = -1)
    (hy : y = 1 ∨ y = -1) (hz : z = 1 ∨ z = -1) :
    Shift R (n + x • unit a + y • unit b + z • unit c - n) ∨ gap w n (n + x • unit a + y • unit b + z • unit c) ≠ 0 := by
  by_contra hc
  push Not at hc
  obtain ⟨hs, hg⟩ := hc
  rw [gap_add, gap_add, gap_add, gap_self, zero_add] at hg
  have pa := hp a
  have pb := hp b
  have pc := hp c
  have w1 : R a b c ∨ w a + w b - w c ≠ 0 := or_iff_not_imp_left.2 (hw a b c)
  have w2 : R b c a ∨ w b + w c - w a ≠ 0 := or_iff_not_imp_left.2 (hw b c a)
  have w3 : R a c b ∨ w a + w c - w b ≠ 0 := or_iff_not_imp_left.2 (hw a c b)
  have sh : ∀ i j k, R i j k → ∀ s : σ → ℤ, (s = unit i + unit j - unit k ∨ s = -(unit i + unit j - unit k)) →
      Shift R s := fun i j k h s e => ⟨i, j, k, h, e⟩
  rcases hx with rfl | rfl <;> rcases hy with rfl | rfl <;> rcases hz with rfl | rfl <;> push_cast at hg <;>
    simp only [one_smul, neg_one_smul] at hs
  · linarith
  · rcases w1 with h | h
    · exact hs (sh _ _ _ h _ (.inl (by abel)))
    · exact h (by linarith)
  · rcases w3 with h | h
    · exact hs (sh _ _ _ h _ (.inl (by abel)))
    · exact h (by linarith)
  · rcases w2 with h | h
    · exact hs (sh _ _ _ h _ (.inr (by abel)))
    · exact h (by linarith)
  · rcases w2 with h | h
    · exact hs (sh _ _ _ h _ (.inl (by abel)))
    · exact h (by linarith)
  · rcases w3 with h | h
    · exact hs (sh _ _ _ h _ (.inr (by abel)))
    · exact h (by linarith)
  · rcases w1 with h | h
    · exact hs (sh _ _ _ h _ (.inr (by abel)))
    · exact h (by linarith)
  · linarith

end

variable {N : Nat}

theorem amp_raise (i : Fin N) (p : Wave N) : amp (raise i p) = up i (amp p) := by
  funext m
  rw [raise, amp_smul, amp_sub, amp_coord, amp_slope, Pi.smul_apply, Pi.sub_apply, q_apply, d_apply, smul_eq_mul, up]
  have := rt_sq
  rw [show 1 / Real.sqrt 2 = rt from rfl]
  linear_combination (2 * amp p (m - unit i)) * this

theorem amp_lower (i : Fin N) (p : Wave N) : amp (lower i p) = dn i (amp p) := by
  funext m
  rw [lower, amp_smul, amp_add, amp_coord, amp_slope, Pi.smul_apply, Pi.add_apply, q_apply, d_apply, smul_eq_mul, dn]
  have := rt_sq
  rw [show 1 / Real.sqrt 2 = rt from rfl]
  linear_combination (2 * ((m i : ℝ) + 1) * amp p (m + unit i)) * this

theorem amp_zero : amp (0 : Wave N) = 0 := by
  have := amp_smul 0 (0 : Wave N)
  rwa [zero_smul, zero_smul] at this

theorem amp_resonant (R : Nat → Nat → Nat → Prop) (φ : Nat → Nat → Nat → ℝ) (p : Wave N) :
    amp (resonant R φ p) = resA (fun a b c : Fin N => R a b c) (fun i j k : Fin N => φ i j k) (amp p) := by
  classical
  funext m
  unfold resonant resA
  rw [amp_smul, Pi.smul_apply, smul_eq_mul, show 1 / 6 * (3 * (1 / Real.sqrt 2) ^ 3) = rt ^ 3 / 2 by
    rw [rt]; ring]
  congr 1
  simp only [amp_sum, Finset.sum_apply]
  refine sum_congr rfl fun i _ => sum_congr rfl fun j _ => sum_congr rfl fun k _ => ?_
  split
  · rw [amp_smul, amp_add, amp_raise, amp_raise, amp_lower, amp_lower, amp_lower, amp_raise]
    rfl
  · rw [amp_zero]; rfl

/-- Amplitudes of the cubic potential without the resonant terms. -/
theorem amp_rest {R : Nat → Nat → Nat → Prop} (hR : ResRel fun a b c : Fin N => R a b c) {φ : Nat → Nat → Nat → ℝ}
    (h3 : Symm3 N φ) (p : Wave N) (m : Fin N → ℤ) : amp (cubic φ p - resonant R φ p) m =
      cub (fun i j k : Fin N => φ i j k) (mask (fun a b c : Fin N => R a b c) m (amp p)) m := by
  have hφ : Sy3 fun i j k : Fin N => φ i j k := fun i j k => h3 i j k i.2 j.2 k.2
  rw [amp_sub, Pi.sub_apply, amp_cubic, amp_resonant, cub_mask hR hφ]

open Classical in
theorem mask_one (R : Fin N → Fin N → Fin N → Prop) (n m : Fin N → ℤ) :
    mask R m (one n) = if Shift R (n - m) then 0 else one n := by
  funext x
  unfold mask
  by_cases hx : x = n
  · subst hx; split <;> rfl
  · by_cases hs : Shift R (n - m)
    · rw [if_pos hs, one, if_neg hx, ite_self]; rfl
    · rw [if_neg hs, one, if_neg hx, ite_self]

theorem cub_zero {σ : Type} [Fintype σ] [DecidableEq σ] (φ : σ → σ → σ → ℝ) (m : σ → ℤ) : cub φ 0 m = 0 := by
  rw [cub_at]; simp

open Classical in
/-- The first-order term of the Hamiltonian without the resonances. -/
theorem rest_one {R : Fin N → Fin N → Fin N → Prop} (φ : Fin N → Fin N → Fin N → ℝ) (n m : Fin N → ℤ) :
    cub φ (mask R m (one n)) m = if Shift R (m - n) then 0 else cub φ (one n) m := by
  have e : Shift R (n - m) ↔ Shift R (m - n) := by rw [← shift_neg, neg_sub]
  rw [mask_one]
  simp only [e]
  split
  · exact cub_zero _ _
  · rfl

/-- The second-order energy from amplitudes of first order. -/
theorem second_near (R : Nat → Nat → Nat → Prop) (w : Nat → ℝ) (φ : Nat → Nat → Nat → ℝ) (n : Fin N → ℤ)
    {f : (Fin N → ℤ) → ℝ} (h : ∀ a b c, ∀ x y z : ℤ, (x = 1 ∨ x = -1) → (y = 1 ∨ y = -1) → (z = 1 ∨ z = -1) →
      ∀ m, m = n + x • unit a + y • unit b + z • unit c →
      f m = -(cub (fun i j k : Fin N => φ i j k) (one n) m * inv (fun i : Fin N => w i) (fun a b c : Fin N => R a b c) (m - n))) :
    cub (fun i j k : Fin N => φ i j k) f n = -secondR R w φ n := by
  rw [secondR, cub_near (fun i j k : Fin N => φ i j k) n (g := (-1 : ℝ) • dia (inv (fun i : Fin N => w i) fun a b c : Fin N => R a b c) n
    (cub (fun i j k : Fin N => φ i j k) (one n)))]
  · rw [cub_at, cub_at]
    simp only [map_smul, Pi.smul_apply, smul_eq_mul, neg_mul, one_mul, mul_neg, sum_neg_distrib]
  · intro a b c x y z hx hy hz
    rw [h a b c x y z hx hy hz _ rfl, Pi.smul_apply, dia_apply, smul_eq_mul, neg_one_mul]

/-- The energy to second order without the resonant terms. -/
theorem rest_unique {R : Nat → Nat → Nat → Prop} (hR : ResRel fun a b c : Fin N => R a b c)
    {w : Nat → ℝ} {φ : Nat → Nat → Nat → ℝ} {ψ : Nat → Nat → Nat → Nat → ℝ} {ζ : Nat → Nat → Nat → ℝ}
    {B : Nat → ℝ} {n : Fin N → Nat} {E0 E1 E2 : ℝ} (h3 : Symm3 N φ) (hp : ∀ i < N, 0 < w i) (hw : OnlyListed R N w)
    (h : Deperturbed R w φ ψ ζ B n E0 E1 E2) :
    E0 = level w (toInt n) ∧ E1 = 0 ∧ E2 = -secondR R w φ (toInt n) + expect2 w ψ ζ B (toInt n) := by
  classical
  obtain ⟨p1, p2, h0, h1, h2⟩ := h
  have a0 := congrFun (congrArg amp h0) (toInt n)
  rw [amp_harmonic, amp_smul, Pi.smul_apply, amp_oscState, one_self, smul_eq_mul, mul_one, mul_one] at a0
  have a1 : ∀ m, level w m * amp p1 m + (if Shift (fun a b c : Fin N => R a b c) (m - toInt n) then 0 else
      cub (fun i j k : Fin N => φ i j k) (one (toInt n)) m) = E0 * amp p1 m + E1 * one (toInt n) m := by
    intro m
    have := congrFun (congrArg amp h1) m
    rwa [amp_add, Pi.add_apply, amp_harmonic, amp_rest hR h3, amp_oscState, rest_one, amp_add, amp_smul, amp_smul,
      amp_oscState] at this
  have e1 : E1 = 0 := by
    have := a1 (toInt n)
    rw [cub_diag, ite_self, one_self, a0] at this
    linarith
  have a2 := congrFun (congrArg amp h2) (toInt n)
  rw [amp_add, Pi.add_apply, amp_h2, amp_add, Pi.add_apply, amp_harmonic, amp_rest hR h3, amp_add, amp_add, amp_smul,
    amp_smul, amp_smul, amp_oscState] at a2
  simp only [Pi.add_apply, Pi.smul_apply, one_self, smul_eq_mul] at a2
  rw [second_near R w φ (toInt n) (fun a b c x y z hx hy hz m hm => by
    have g := near_gap (R := fun a b c : Fin N => R a b c) (w := fun i : Fin N => w i) (fun i => hp i i.2)
      (fun i j k => hw i j k i.2 j.2 k.2) (toInt n) a b c x y z hx hy hz
    rw [← hm] at g
    unfold mask inv fracUnless
    by_cases hs : Shift (fun a b c : Fin N => R a b c) (m - toInt n)
    · rw [if_pos hs, if_pos hs, mul_zero, neg_zero]
    · have g := g.resolve_left hs
      have hmn : m ≠ toInt n := by rintro rfl; exact g (gap_self _ _)
      have := a1 m
      rw [if_neg hs, e1, zero_mul, add_zero, ← a0] at this
      rw [if_neg hs, if_neg hs, gap_shift]
      rw [gap_level] at g ⊢
      field_simp
      linarith)] at a2
  refine ⟨a0.symm, e1, ?_⟩
  rw [e1, a0] at a2
  linarith

end Verif.Osc
