import Verif.Lemmas.HermiteState

/-!
# Solving the perturbation equations

Helpers for C102.
-/

namespace Verif.Osc

open MvPolynomial
open scoped IsMulCommutative

section
variable {σ : Type} [Fintype σ] [DecidableEq σ]

theorem q3_local {w : σ → ℝ} (hw : NoRes w) (n : σ → ℤ) {f g : (σ → ℤ) → ℝ} (h : ∀ m, gap w n m ≠ 0 → f m = g m)
    (a b c : σ) : q a (q b (q c f)) n = q a (q b (q c g)) n := by
  have key : ∀ x y z : ℤ, (x = 1 ∨ x = -1) → (y = 1 ∨ y = -1) → (z = 1 ∨ z = -1) →
      f (n + x • unit a + y • unit b + z • unit c) = g (n + x • unit a + y • unit b + z • unit c) := by
    intro x y z hx hy hz
    apply h
    rw [gap_add, gap_add, gap_add, gap_self, zero_add]
    have h1 := hw a b c
    have h2 := (hw b c a).2
    have h3 := (hw a c b).2
    rcases hx with rfl | rfl <;> rcases hy with rfl | rfl <;> rcases hz with rfl | rfl <;> push_cast <;> intro hc
    · apply h1.1; linarith
    · apply h1.2; linarith
    · apply h3; linarith
    · apply h2; linarith
    · apply h2; linarith
    · apply h3; linarith
    · apply h1.2; linarith
    · apply h1.1; linarith
  have p : ∀ m : σ → ℤ, ∀ i : σ, m + unit i = m + (1 : ℤ) • unit i := fun m i => by rw [one_smul]
  have s : ∀ m : σ → ℤ, ∀ i : σ, m - unit i = m + (-1 : ℤ) • unit i := fun m i => by rw [neg_one_smul, sub_eq_add_neg]
  simp only [q_apply, p, s]
  rw [key 1 1 1 (by simp) (by simp) (by simp), key 1 1 (-1) (by simp) (by simp) (by simp),
    key 1 (-1) 1 (by simp) (by simp) (by simp), key 1 (-1) (-1) (by simp) (by simp) (by simp),
    key (-1) 1 1 (by simp) (by simp) (by simp), key (-1) 1 (-1) (by simp) (by simp) (by simp),
    key (-1) (-1) 1 (by simp) (by simp) (by simp), key (-1) (-1) (-1) (by simp) (by simp) (by simp)]

theorem cub_local {w : σ → ℝ} (hw : NoRes w) (φ : σ → σ → σ → ℝ) (n : σ → ℤ) {f g : (σ → ℤ) → ℝ}
    (h : ∀ m, gap w n m ≠ 0 → f m = g m) : cub φ f n = cub φ g n := by
  rw [cub_at, cub_at]
  simp only [q3_local hw n h]

theorem cub_diag (φ : σ → σ → σ → ℝ) (n : σ → ℤ) : cub φ (one n) n = 0 := by
  rw [cub_at]
  have : ∀ a b c, q a (q b (q c (one n))) n = 0 := by
    intro a b c
    by_contra hc
    have hp := par_at (par_q (par_q (par_q (par_one n) c) b) a) hc
    have tot : ∀ u : σ, ∑ v, odd u v = 1 := fun u => by simp [odd]
    have h3 := congrArg (fun g : σ → ZMod 2 => ∑ v, g v) hp
    simp only [Pi.add_apply, Pi.zero_apply, Finset.sum_add_distrib, tot, Finset.sum_const_zero, add_zero] at h3
    revert h3; decide
  simp only [this, mul_zero, Finset.sum_const_zero]

end

variable {N : Nat}

theorem gap_level (w : Nat → ℝ) (n m : Fin N → ℤ) : gap (fun i : Fin N => w i) n m = level w m - level w n := by
  unfold gap level
  rw [← Finset.sum_sub_distrib]
  exact Finset.sum_congr rfl fun i _ => by ring

/-- The expectation value of the second-order Hamiltonian. -/
noncomputable def expect2 (w : Nat → ℝ) (ψ : Nat → Nat → Nat → Nat → ℝ) (ζ : Nat → Nat → Nat → ℝ) (B : Nat → ℝ)
    (n : Fin N → ℤ) : ℝ :=
  qua (fun i j k l : Fin N => ψ i j k l) (one n) n - ∑ a ∈ Finset.range 3, B a *
    ang (fun i : Fin N => w i) (fun k l => ζ k l a) (ang (fun i : Fin N => w i) (fun k l => ζ k l a) (one n)) n

/-- The second-order term of the cubic potential. -/
noncomputable def second1 (w : Nat → ℝ) (φ : Nat → Nat → Nat → ℝ) (n : Fin N → ℤ) : ℝ :=
  cub (fun i j k : Fin N => φ i j k) (res (fun i : Fin N => w i) n (cub (fun i j k : Fin N => φ i j k) (one n))) n

theorem amp_h2 (w : Nat → ℝ) (ψ : Nat → Nat → Nat → Nat → ℝ) (ζ : Nat → Nat → Nat → ℝ) (B : Nat → ℝ)
    (n : Fin N → Nat) : amp (quartic ψ (oscState n) + coriolis w ζ B (oscState n)) (toInt n) =
      expect2 w ψ ζ B (toInt n) := by
  rw [amp_add, Pi.add_apply, amp_quartic, amp_coriolis, amp_oscState, expect2, sub_eq_add_neg]

theorem one_self {σ : Type} [DecidableEq σ] [Fintype σ] (n : σ → ℤ) : one n n = 1 := if_pos rfl

/-- The second-order part of the energy from the first-order wave function. -/
theorem cub_first {w : Nat → ℝ} {φ : Nat → Nat → Nat → ℝ} (hw : NoRes fun i : Fin N => w i) {n : Fin N → ℤ}
    {f : (Fin N → ℤ) → ℝ} (h : ∀ m, m ≠ n → (level w m - level w n) * f m =
      -cub (fun i j k : Fin N => φ i j k) (one n) m) :
    cub (fun i j k : Fin N => φ i j k) f n = -second1 w φ n := by
  have : cub (fun i j k : Fin N => φ i j k) f n = cub (fun i j k : Fin N => φ i j k)
      ((-1 : ℝ) • res (fun i : Fin N => w i) n (cub (fun i j k : Fin N => φ i j k) (one n))) n := by
    refine cub_local hw _ n fun m hm => ?_
    rw [Pi.smul_apply, res_apply, gap_level, smul_eq_mul]
    rw [gap_level] at hm
    have hmn : m ≠ n := by rintro rfl; exact hm (sub_self _)
    have := h m hmn
    field_simp
    linarith
  rw [this, second1, cub_at, cub_at]
  simp only [map_smul, Pi.smul_apply, smul_eq_mul, neg_mul, one_mul, mul_neg, Finset.sum_neg_distrib]

theorem vib_unique {w : Nat → ℝ} {φ : Nat → Nat → Nat → ℝ} {ψ : Nat → Nat → Nat → Nat → ℝ} {ζ : Nat → Nat → Nat → ℝ}
    {B : Nat → ℝ} {n : Fin N → Nat} {E0 E1 E2 : ℝ} (hw : NoRes fun i : Fin N => w i)
    (h : VibEnergy w φ ψ ζ B n E0 E1 E2) :
    E0 = level w (toInt n) ∧ E1 = 0 ∧ E2 = -second1 w φ (toInt n) + expect2 w ψ ζ B (toInt n) := by
  obtain ⟨p1, p2, h0, h1, h2⟩ := h
  have a0 := congrFun (congrArg amp h0) (toInt n)
  rw [amp_harmonic, amp_smul, Pi.smul_apply, amp_oscState, one_self, smul_eq_mul, mul_one, mul_one] at a0
  have a1 : ∀ m, level w m * amp p1 m + cub (fun i j k : Fin N => φ i j k) (one (toInt n)) m =
      E0 * amp p1 m + E1 * one (toInt n) m := by
    intro m
    have := congrFun (congrArg amp h1) m
    rwa [amp_add, Pi.add_apply, amp_harmonic, amp_cubic, amp_oscState, amp_add, amp_smul, amp_smul, amp_oscState] at this
  have e1 : E1 = 0 := by
    have := a1 (toInt n)
    rw [cub_diag, one_self, a0] at this
    linarith
  have a2 := congrFun (congrArg amp h2) (toInt n)
  rw [amp_add, Pi.add_apply, amp_h2, amp_add, Pi.add_apply, amp_harmonic, amp_cubic, amp_add, amp_add, amp_smul,
    amp_smul, amp_smul, amp_oscState] at a2
  simp only [Pi.add_apply, Pi.smul_apply, one_self, smul_eq_mul] at a2
  rw [cub_first hw (n := toInt n) (fun m hm => by
    have := a1 m
    rw [← a0, e1] at this
    linarith)] at a2
  refine ⟨a0.symm, e1, ?_⟩
  rw [e1, a0] at a2
  linarith

/-- A wave function is determined by its amplitudes. -/
theorem amp_injective {p r : Wave N} (h : amp p = amp r) : p = r := by
  rw [← sub_eq_zero]
  have h0 : amp (p - r) = 0 := by rw [amp_sub, h, sub_self]
  generalize p - r = s at h0
  obtain ⟨c, rfl⟩ := (Finsupp.mem_span_range_iff_exists_finsupp).1 (oscState_span s)
  have : c = 0 := by
    ext m
    have h1 := congrFun h0 (toInt m)
    unfold Finsupp.sum at h1
    rw [amp_sum, Finset.sum_apply] at h1
    simp only [amp_smul, Pi.smul_apply, amp_oscState, smul_eq_mul, one] at h1
    have hinj : ∀ x : Fin N → Nat, toInt m = toInt x ↔ m = x := by
      intro x
      constructor
      · intro e; funext i; have := congrFun e i; simpa [toInt] using this
      · rintro rfl; rfl
    simp only [hinj, mul_ite, mul_one, mul_zero, Finset.sum_ite_eq, Pi.zero_apply] at h1
    split at h1
    · exact h1
    · rename_i hm; exact Finsupp.notMem_support_iff.1 hm
  rw [this, Finsupp.sum_zero_index]

/-- The equation `(H₀ - E) p = r` has a solution if the level is not degenerate and `r` has no part along it. -/
theorem solve (w : Nat → ℝ) (n : Fin N → Nat) (hn : ∀ m, m ≠ n → level w (toInt m) ≠ level w (toInt n)) (r : Wave N)
    (hr : amp r (toInt n) = 0) : ∃ p, harmonic w p = level w (toInt n) • p + r := by
  obtain ⟨c, rfl⟩ := (Finsupp.mem_span_range_iff_exists_finsupp).1 (oscState_span r)
  refine ⟨∑ m ∈ c.support, (c m / (level w (toInt m) - level w (toInt n))) • oscState m, amp_injective ?_⟩
  funext m
  unfold Finsupp.sum at hr ⊢
  rw [amp_harmonic, amp_add, amp_smul]
  simp only [amp_sum, Pi.add_apply, Pi.smul_apply, Finset.sum_apply, amp_smul, smul_eq_mul, amp_oscState, Finset.mul_sum,
    ← Finset.sum_add_distrib] at hr ⊢
  by_cases hm : m = toInt n
  · subst hm
    rw [Finset.sum_add_distrib, hr, add_zero]
  · refine Finset.sum_congr rfl fun x _ => ?_
    by_cases hx : m = toInt x
    · subst hx
      have hxn : x ≠ n := by rintro rfl; exact hm rfl
      have := sub_ne_zero.2 (hn x hxn)
      rw [one_self]
      field_simp
      ring
    · simp [one, hx]

theorem vib_exists (w : Nat → ℝ) (φ : Nat → Nat → Nat → ℝ) (ψ : Nat → Nat → Nat → Nat → ℝ) (ζ : Nat → Nat → Nat → ℝ)
    (B : Nat → ℝ) (n : Fin N → Nat) (hn : ∀ m, m ≠ n → level w (toInt m) ≠ level w (toInt n)) :
    ∃ E0 E1 E2, VibEnergy w φ ψ ζ B n E0 E1 E2 := by
  have h0 : harmonic w (oscState n) = level w (toInt n) • oscState n := by
    refine amp_injective (funext fun m => ?_)
    rw [amp_harmonic, amp_smul, amp_oscState, Pi.smul_apply, smul_eq_mul]
    by_cases h : m = toInt n
    · rw [h]
    · simp [one, h]
  obtain ⟨p1, h1⟩ := solve w n hn (-cubic φ (oscState n)) (by
    rw [← neg_one_smul ℝ, amp_smul, Pi.smul_apply, amp_cubic, amp_oscState, cub_diag, smul_zero])
  obtain ⟨p2, h2⟩ := solve w n hn (amp (cubic φ p1 + (quartic ψ (oscState n) + coriolis w ζ B (oscState n))) (toInt n)
    • oscState n - (cubic φ p1 + (quartic ψ (oscState n) + coriolis w ζ B (oscState n)))) (by
    rw [amp_sub, amp_smul, Pi.sub_apply, Pi.smul_apply, amp_oscState, one_self, smul_eq_mul, mul_one, sub_self])
  refine ⟨_, 0, amp (cubic φ p1 + (quartic ψ (oscState n) + coriolis w ζ B (oscState n))) (toInt n), p1, p2, h0, ?_, ?_⟩
  · rw [h1]; simp
  · rw [h2, zero_smul, add_zero]; dsimp only; abel

/-- No amplitude for negative occupation numbers. -/
theorem amp_neg (p : Wave N) {m : Fin N → ℤ} {i : Fin N} (h : m i < 0) : amp p m = 0 := by
  obtain ⟨c, rfl⟩ := (Finsupp.mem_span_range_iff_exists_finsupp).1 (oscState_span p)
  unfold Finsupp.sum
  rw [amp_sum, Finset.sum_apply]
  refine Finset.sum_eq_zero fun x _ => ?_
  rw [amp_smul, Pi.smul_apply, amp_oscState, one, if_neg, smul_zero]
  rintro rfl
  simp only [toInt] at h
  omega

end Verif.Osc
