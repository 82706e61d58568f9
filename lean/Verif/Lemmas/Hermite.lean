import Verif.Spec.Perturb
import Verif.Lemmas.LadderForm
import Mathlib.Algebra.Algebra.Subalgebra.Lattice
import Mathlib.RingTheory.Adjoin.Basic
import Mathlib.RingTheory.Derivation.Basic
import Mathlib.Algebra.Polynomial.Derivation
import Mathlib.LinearAlgebra.Finsupp.LinearCombination

/-!
# From wave functions to amplitudes

Helpers for C102: the expansion of a wave function in oscillator states.
-/

namespace Verif.Osc

open MvPolynomial
open scoped IsMulCommutative

variable {N : Nat}

/-- The operators `q`. -/
noncomputable abbrev qOp (i : Fin N) : Module.End ℝ ((Fin N → ℤ) → ℝ) := q i

theorem qOp_comm : ∀ a ∈ Set.range (qOp (N := N)), ∀ b ∈ Set.range (qOp (N := N)), a * b = b * a := by
  rintro _ ⟨i, rfl⟩ _ ⟨j, rfl⟩
  exact LinearMap.ext fun f => q_comm i j f

/-- The algebra the operators `q` generate. -/
abbrev QAlg (N : Nat) := Algebra.adjoin ℝ (Set.range (qOp (N := N)))

instance : IsMulCommutative (QAlg N) := Algebra.isMulCommutative_adjoin ℝ qOp_comm

/-- The amplitudes of a wave function. -/
noncomputable def amp (p : Wave N) : (Fin N → ℤ) → ℝ :=
  ((aeval (fun i => (⟨qOp i, Algebra.subset_adjoin ⟨i, rfl⟩⟩ : QAlg N)) p : QAlg N) :
    Module.End ℝ ((Fin N → ℤ) → ℝ)) (one 0)

theorem amp_add (p r : Wave N) : amp (p + r) = amp p + amp r := by
  simp [amp]

theorem amp_smul (c : ℝ) (p : Wave N) : amp (c • p) = c • amp p := by
  simp [amp]

theorem amp_coord (i : Fin N) (p : Wave N) : amp (coord i p) = q i (amp p) := by
  unfold amp coord
  rw [map_mul, aeval_X]
  rfl

theorem amp_one : amp (1 : Wave N) = one 0 := by
  unfold amp
  rw [map_one]
  rfl

/-- The lowering operator, times `√2`. -/
noncomputable def low (i : Fin N) (f : (Fin N → ℤ) → ℝ) : (Fin N → ℤ) → ℝ := q i f + d i f

theorem two_rt : 2 * (rt * Real.sqrt 2) = 2 := by
  unfold rt
  have h0 : Real.sqrt 2 ≠ 0 := by positivity
  field_simp

theorem low_apply (i : Fin N) (f : (Fin N → ℤ) → ℝ) (m : Fin N → ℤ) :
    low i f m = 2 * rt * ((m i + 1 : ℝ) * f (m + unit i)) := by
  unfold low
  rw [Pi.add_apply, q_apply, d_apply]
  ring

theorem low_vac (i : Fin N) : low i (one (0 : Fin N → ℤ)) = 0 := by
  funext m
  rw [low_apply]
  by_cases h : m + unit i = 0
  · have : m i + 1 = 0 := by have := congrFun h i; simpa [unit] using this
    have : (m i + 1 : ℝ) = 0 := by exact_mod_cast this
    rw [this]; simp
  · simp [one, h]

theorem low_q (i j : Fin N) (f : (Fin N → ℤ) → ℝ) : low i (q j f) = q j (low i f) + if j = i then f else 0 := by
  have hrt := rt_sq
  funext m
  by_cases h : j = i
  · subst h
    simp only [if_true, Pi.add_apply, low_apply, q_apply]
    have e1 : m + unit j - unit j = m := by abel
    have e2 : m - unit j + unit j = m := by abel
    have u : unit j j = 1 := by simp [unit]
    rw [e1, e2]
    simp only [Pi.add_apply, Pi.sub_apply, u]
    push_cast
    linear_combination (2 * f m) * hrt
  · simp only [if_neg h, Pi.add_apply, Pi.zero_apply, low_apply, q_apply, add_zero]
    have u1 : unit i j = 0 := by simp [unit, h]
    have u2 : unit j i = 0 := by simp [unit, Ne.symm h]
    simp only [Pi.add_apply, Pi.sub_apply, u1, u2, add_zero, sub_zero]
    rw [show m + unit i - unit j = m - unit j + unit i by abel, add_right_comm m]
    ring

theorem low_add (i : Fin N) (f g : (Fin N → ℤ) → ℝ) : low i (f + g) = low i f + low i g := by
  unfold low; rw [map_add, map_add]; abel

theorem low_smul (i : Fin N) (c : ℝ) (f : (Fin N → ℤ) → ℝ) : low i (c • f) = c • low i f := by
  unfold low; rw [map_smul, map_smul, smul_add]

theorem amp_pderiv (i : Fin N) (p : Wave N) : amp (pderiv i p) = low i (amp p) := by
  induction p using MvPolynomial.induction_on with
  | C c =>
    rw [pderiv_C, show (C c : Wave N) = c • 1 by rw [MvPolynomial.smul_eq_C_mul, mul_one], amp_smul, low_smul, amp_one,
      low_vac, smul_zero, show (0 : Wave N) = (0 : ℝ) • 0 by simp, amp_smul, zero_smul]
  | add p r hp hr => rw [map_add, amp_add, amp_add, low_add, hp, hr]
  | mul_X p j hp =>
    have e : p * X j = coord j p := mul_comm _ _
    rw [e, amp_coord, low_q]
    unfold coord
    rw [Derivation.leibniz, amp_add, smul_eq_mul, smul_eq_mul, add_comm, pderiv_X]
    have e2 : amp (X j * pderiv i p) = q j (low i (amp p)) := by rw [← hp]; exact amp_coord j _
    rw [e2, add_comm]
    congr 1
    by_cases h : j = i
    · subst h; simp
    · simp only [Pi.single_apply, if_neg h, mul_zero]
      rw [show (0 : Wave N) = (0 : ℝ) • 0 by simp, amp_smul, zero_smul]

theorem amp_slope (i : Fin N) (p : Wave N) : amp (slope i p) = d i (amp p) := by
  unfold slope
  rw [sub_eq_add_neg, show -(X i * p) = (-1 : ℝ) • coord i p by rw [neg_one_smul]; rfl, amp_add, amp_smul, amp_pderiv,
    amp_coord, low, neg_one_smul]
  abel

theorem amp_sum {ι : Type} (s : Finset ι) (f : ι → Wave N) : amp (∑ i ∈ s, f i) = ∑ i ∈ s, amp (f i) := by
  classical
  induction s using Finset.induction_on with
  | empty => rw [Finset.sum_empty, Finset.sum_empty, show (0 : Wave N) = (0 : ℝ) • 0 by simp, amp_smul, zero_smul]
  | insert a s ha ih => rw [Finset.sum_insert ha, Finset.sum_insert ha, amp_add, ih]

/-- The harmonic energy of `m`. -/
noncomputable def level (w : Nat → ℝ) (m : Fin N → ℤ) : ℝ := ∑ i : Fin N, w i * ((m i : ℝ) + 1 / 2)

theorem amp_harmonic (w : Nat → ℝ) (p : Wave N) (m : Fin N → ℤ) : amp (harmonic w p) m = level w m * amp p m := by
  unfold harmonic level
  rw [amp_sum, Finset.sum_apply, Finset.sum_mul]
  refine Finset.sum_congr rfl fun i _ => ?_
  rw [amp_smul, sub_eq_add_neg, ← neg_one_smul ℝ (slope i _), amp_add, amp_smul, amp_coord, amp_coord, amp_slope,
    amp_slope]
  simp only [Pi.smul_apply, Pi.add_apply, smul_eq_mul]
  have e : ∀ g : (Fin N → ℤ) → ℝ, g m = g (sl1 m i 0) := fun g => at_sl1 m g i
  rw [e (q i _), e (d i _), e (amp p)]
  simp only [q_sl1, d_sl1]
  norm_num
  have := rt_sq
  linear_combination (w i * (2 * (m i : ℝ) + 1) * amp p (sl1 m i 0)) * this

theorem amp_cubic (φ : Nat → Nat → Nat → ℝ) (p : Wave N) :
    amp (cubic φ p) = cub (fun i j k : Fin N => φ i j k) (amp p) := by
  unfold cubic cub
  simp only [amp_smul, amp_sum, amp_coord]

theorem amp_quartic (ψ : Nat → Nat → Nat → Nat → ℝ) (p : Wave N) :
    amp (quartic ψ p) = qua (fun i j k l : Fin N => ψ i j k l) (amp p) := by
  unfold quartic qua
  simp only [amp_smul, amp_sum, amp_coord]

theorem amp_angular (w : Nat → ℝ) (ζ : Nat → Nat → Nat → ℝ) (a : Nat) (p : Wave N) :
    amp (angular w ζ a p) = ang (fun i : Fin N => w i) (fun k l => ζ k l a) (amp p) := by
  unfold angular ang
  simp only [amp_smul, amp_sum, amp_coord, amp_slope]

theorem amp_coriolis (w : Nat → ℝ) (ζ : Nat → Nat → Nat → ℝ) (B : Nat → ℝ) (p : Wave N) (m : Fin N → ℤ) :
    amp (coriolis w ζ B p) m = -∑ a ∈ Finset.range 3, B a *
      ang (fun i : Fin N => w i) (fun k l => ζ k l a) (ang (fun i : Fin N => w i) (fun k l => ζ k l a) (amp p)) m := by
  unfold coriolis
  rw [← neg_one_smul ℝ (∑ a ∈ _, _), amp_smul, amp_sum]
  simp only [amp_smul, amp_angular, Pi.smul_apply, Finset.sum_apply, smul_eq_mul, neg_mul, one_mul]

end Verif.Osc
