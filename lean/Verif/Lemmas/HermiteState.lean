import Verif.Lemmas.Hermite

/-!
# The oscillator states

Helpers for C102: the amplitudes of the oscillator states, and that these states span the wave functions.
-/

namespace Verif.Osc

open MvPolynomial
open scoped IsMulCommutative

variable {N : Nat}

/-- One factor of an oscillator state. -/
noncomputable def factor (i : Fin N) (k : Nat) : Wave N :=
  Polynomial.aeval (C (Real.sqrt 2) * X i : Wave N) (Polynomial.hermite k)

theorem pderiv_aeval (i j : Fin N) (f : Polynomial ℤ) :
    pderiv i (Polynomial.aeval (C (Real.sqrt 2) * X j : Wave N) f) =
      if j = i then C (Real.sqrt 2) * Polynomial.aeval (C (Real.sqrt 2) * X j : Wave N) (Polynomial.derivative f) else 0 := by
  have h := ((pderiv (R := ℝ) i).restrictScalars ℤ).map_aeval f (C (Real.sqrt 2) * X j : Wave N)
  have h' : pderiv i (Polynomial.aeval (C (Real.sqrt 2) * X j : Wave N) f) =
      Polynomial.aeval (C (Real.sqrt 2) * X j : Wave N) (Polynomial.derivative f) •
        pderiv i (C (Real.sqrt 2) * X j : Wave N) := h
  rw [h', pderiv_C_mul, pderiv_X, smul_eq_mul]
  by_cases hj : j = i
  · subst hj; simp [mul_comm, MvPolynomial.smul_eq_C_mul]
  · simp [hj]

theorem oscState_split (n : Fin N → Nat) (i : Fin N) :
    oscState n = factor i (n i) * ∏ j ∈ Finset.univ.erase i, factor j (n j) :=
  (Finset.mul_prod_erase _ _ (Finset.mem_univ i)).symm

theorem pderiv_rest (n : Fin N → Nat) (i : Fin N) :
    pderiv i (∏ j ∈ Finset.univ.erase i, factor j (n j) : Wave N) = 0 := by
  refine Finset.prod_induction _ (fun p => pderiv i p = 0) ?_ ?_ ?_
  · intro a b ha hb
    rw [Derivation.leibniz, ha, hb]; simp
  · simp
  · intro j hj
    rw [factor, pderiv_aeval, if_neg (Finset.ne_of_mem_erase hj)]

theorem pderiv_oscState (n : Fin N → Nat) (i : Fin N) :
    pderiv i (oscState n) = C (Real.sqrt 2) * Polynomial.aeval (C (Real.sqrt 2) * X i : Wave N)
      (Polynomial.derivative (Polynomial.hermite (n i))) * ∏ j ∈ Finset.univ.erase i, factor j (n j) := by
  rw [oscState_split n i, Derivation.leibniz, pderiv_rest, smul_zero, zero_add, factor, pderiv_aeval, if_pos rfl,
    smul_eq_mul, mul_comm]

theorem rest_congr {n m : Fin N → Nat} {i : Fin N} (h : ∀ j, j ≠ i → m j = n j) :
    ∏ j ∈ Finset.univ.erase i, (factor j (m j) : Wave N) = ∏ j ∈ Finset.univ.erase i, factor j (n j) :=
  Finset.prod_congr rfl fun j hj => by rw [h j (Finset.ne_of_mem_erase hj)]

/-- Adding a quantum. -/
theorem oscState_succ (n : Fin N → Nat) (i : Fin N) :
    oscState (Function.update n i (n i + 1)) = Real.sqrt 2 • coord i (oscState n) - rt • pderiv i (oscState n) := by
  have hs : C (Real.sqrt 2) * C rt = (1 : Wave N) := by
    rw [← C_mul, ← C_1]
    congr 1
    have := two_rt
    linarith
  rw [pderiv_oscState, oscState_split _ i, rest_congr (n := n) (fun j hj => Function.update_of_ne hj _ _),
    Function.update_self, coord, oscState_split n i, factor, factor, Polynomial.hermite_succ]
  simp only [map_sub, map_mul, Polynomial.aeval_X, MvPolynomial.smul_eq_C_mul]
  linear_combination (Polynomial.aeval (C (Real.sqrt 2) * X i : Wave N)
    (Polynomial.derivative (Polynomial.hermite (n i))) * ∏ j ∈ Finset.univ.erase i, factor j (n j)) * hs

theorem derivative_hermite (k : Nat) :
    Polynomial.derivative (Polynomial.hermite (k + 1)) = ((k + 1 : Nat) : Polynomial ℤ) * Polynomial.hermite k := by
  induction k with
  | zero => simp
  | succ k ih =>
    rw [Polynomial.hermite_succ (k + 1), Polynomial.derivative_sub, Polynomial.derivative_mul, Polynomial.derivative_X,
      ih, Polynomial.derivative_mul, Polynomial.derivative_natCast, Polynomial.hermite_succ k]
    push_cast
    ring

/-- Removing a quantum. -/
theorem oscState_pred (n : Fin N → Nat) (i : Fin N) :
    pderiv i (oscState (Function.update n i (n i + 1))) = (Real.sqrt 2 * (n i + 1)) • oscState n := by
  rw [pderiv_oscState, rest_congr (n := n) (fun j hj => Function.update_of_ne hj _ _), Function.update_self,
    derivative_hermite, oscState_split n i, map_mul, factor, map_natCast, MvPolynomial.smul_eq_C_mul, C_mul]
  push_cast
  rw [map_add, map_natCast, map_one]
  ring

theorem oscState_pderiv_zero (n : Fin N → Nat) (i : Fin N) (h : n i = 0) : pderiv i (oscState n) = 0 := by
  rw [pderiv_oscState, h]; simp

/-- A natural occupation number as an integer. -/
def toInt (n : Fin N → Nat) : Fin N → ℤ := fun i => n i

theorem toInt_update (n : Fin N → Nat) (i : Fin N) : toInt (Function.update n i (n i + 1)) = toInt n + unit i := by
  funext j
  by_cases h : j = i
  · subst h; simp [toInt, unit]
  · simp [toInt, unit, h]

theorem oscState_zero : oscState (0 : Fin N → Nat) = 1 := by
  unfold oscState
  exact Finset.prod_eq_one fun i _ => by simp

/-- Induction on occupation numbers. -/
theorem occ_induction {P : (Fin N → Nat) → Prop} (h0 : P 0) (hs : ∀ n i, P n → P (Function.update n i (n i + 1)))
    (n : Fin N → Nat) : P n := by
  induction hk : ∑ i, n i generalizing n with
  | zero =>
    have : n = 0 := funext fun i => by
      have := (Finset.sum_eq_zero_iff.1 hk) i (Finset.mem_univ i)
      simpa using this
    rw [this]; exact h0
  | succ k ih =>
    have : ∃ i, n i ≠ 0 := by
      by_contra hc
      push Not at hc
      simp [hc] at hk
    obtain ⟨i, hi⟩ := this
    have e : n = Function.update (Function.update n i (n i - 1)) i ((Function.update n i (n i - 1)) i + 1) := by
      funext j
      by_cases h : j = i
      · subst h; simp; omega
      · simp [h]
    rw [e]
    apply hs
    apply ih
    have h1 := Finset.add_sum_erase Finset.univ n (Finset.mem_univ i)
    have h2 := Finset.add_sum_erase Finset.univ (Function.update n i (n i - 1)) (Finset.mem_univ i)
    have h3 : ∑ x ∈ Finset.univ.erase i, Function.update n i (n i - 1) x = ∑ x ∈ Finset.univ.erase i, n x :=
      Finset.sum_congr rfl fun j hj => Function.update_of_ne (Finset.ne_of_mem_erase hj) _ _
    rw [h3, Function.update_self] at h2
    omega

theorem amp_sub (p r : Wave N) : amp (p - r) = amp p - amp r := by
  rw [sub_eq_add_neg, ← neg_one_smul ℝ r, amp_add, amp_smul, neg_one_smul, sub_eq_add_neg]

/-- The amplitudes of an oscillator state. -/
theorem amp_oscState (n : Fin N → Nat) : amp (oscState n) = one (toInt n) := by
  induction n using occ_induction with
  | h0 => rw [oscState_zero, amp_one]; rfl
  | hs n i ih =>
    rw [oscState_succ, amp_sub, amp_smul, amp_smul, amp_coord, amp_pderiv, ih, toInt_update]
    funext m
    simp only [Pi.sub_apply, Pi.smul_apply, smul_eq_mul, low_apply, q_apply]
    have h1 := two_rt
    have h2 := rt_sq
    have h3 : one (toInt n) (m - unit i) = one (toInt n + unit i) m := by
      unfold one
      simp only [sub_eq_iff_eq_add]
    rw [h3]
    linear_combination (one (toInt n + unit i) m / 2 + ((m i : ℝ) + 1) * one (toInt n) (m + unit i) / 2) * h1 -
      2 * ((m i : ℝ) + 1) * one (toInt n) (m + unit i) * h2

theorem oscState_span (p : Wave N) : p ∈ Submodule.span ℝ (Set.range (oscState (N := N))) := by
  have hmem : ∀ n, oscState n ∈ Submodule.span ℝ (Set.range (oscState (N := N))) :=
    fun n => Submodule.subset_span ⟨n, rfl⟩
  induction p using MvPolynomial.induction_on with
  | C c =>
    rw [show (C c : Wave N) = c • oscState 0 by rw [oscState_zero, MvPolynomial.smul_eq_C_mul, mul_one]]
    exact Submodule.smul_mem _ _ (hmem 0)
  | add p r hp hr => exact Submodule.add_mem _ hp hr
  | mul_X p i hp =>
    induction hp using Submodule.span_induction with
    | mem x hx =>
      obtain ⟨n, rfl⟩ := hx
      have hd : pderiv i (oscState n) ∈ Submodule.span ℝ (Set.range (oscState (N := N))) := by
        by_cases h : n i = 0
        · rw [oscState_pderiv_zero n i h]; exact Submodule.zero_mem _
        · have e : n = Function.update (Function.update n i (n i - 1)) i ((Function.update n i (n i - 1)) i + 1) := by
            funext j
            by_cases h : j = i
            · subst h; simp; omega
            · simp [h]
          rw [e, oscState_pred]
          exact Submodule.smul_mem _ _ (hmem _)
      have : oscState n * X i = rt • oscState (Function.update n i (n i + 1)) + (rt * rt) • pderiv i (oscState n) := by
        have h1 : rt * Real.sqrt 2 = 1 := by have := two_rt; linarith
        rw [oscState_succ, smul_sub, smul_smul, smul_smul, h1, one_smul, sub_add_cancel, coord, mul_comm]
      rw [this]
      exact Submodule.add_mem _ (Submodule.smul_mem _ _ (hmem _)) (Submodule.smul_mem _ _ hd)
    | zero => rw [zero_mul]; exact Submodule.zero_mem _
    | add x y _ _ hx hy => rw [add_mul]; exact Submodule.add_mem _ hx hy
    | smul c x _ hx => rw [smul_mul_assoc]; exact Submodule.smul_mem _ _ hx

end Verif.Osc
