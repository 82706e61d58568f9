import Verif.Spec.VanVleck
import Verif.Lemmas.LegsCode
import Verif.Lemmas.CoupledList
import Verif.Props.Coupled

/-!
# Scalar products of oscillator states, and the coupling of two of them

Helpers for C108.
-/

namespace Verif.Osc

open Finset

variable {N : Nat}

theorem amp_raise_lop (i : Fin N) (p : Wave N) : amp (raise i p) = lop (i, true) (amp p) := by
  unfold raise
  rw [amp_smul, amp_sub, amp_coord, amp_slope, q_lop, d_lop, ← smul_sub, smul_smul]
  show (rt * rt) • _ = _
  rw [rt_sq]
  funext m
  simp only [Pi.smul_apply, Pi.sub_apply, Pi.add_apply, smul_eq_mul]
  ring

theorem amp_lower_lop (i : Fin N) (p : Wave N) : amp (lower i p) = lop (i, false) (amp p) := by
  unfold lower
  rw [amp_smul, amp_add, amp_coord, amp_slope, q_lop, d_lop, ← smul_add, smul_smul]
  show (rt * rt) • _ = _
  rw [rt_sq]
  funext m
  simp only [Pi.smul_apply, Pi.sub_apply, Pi.add_apply, smul_eq_mul]
  ring

theorem raise_osc (i : Fin N) (n : Fin N → Nat) : raise i (oscState n) = oscState (Function.update n i (n i + 1)) := by
  apply amp_injective
  rw [amp_raise_lop, amp_oscState, amp_oscState, toInt_update]
  funext m
  simp only [lop_apply, co, net, if_true, one_mul, one, sub_eq_iff_eq_add]

theorem lower_osc (i : Fin N) (n : Fin N → Nat) :
    lower i (oscState (Function.update n i (n i + 1))) = ((n i : ℝ) + 1) • oscState n := by
  apply amp_injective
  rw [amp_lower_lop, amp_oscState, amp_smul, amp_oscState, toInt_update]
  funext m
  simp only [lop_apply, co, net, Bool.false_eq_true, if_false, sub_neg_eq_add, Pi.smul_apply, smul_eq_mul, one, add_left_inj]
  split_ifs with h
  · rw [h]; simp [toInt]
  · simp

section
variable {ip : Wave N → Wave N → ℝ} (hip : ScalarProduct ip)
include hip

theorem ip_add_right (p q r : Wave N) : ip p (q + r) = ip p q + ip p r := by
  rw [hip.symm, hip.add, hip.symm q, hip.symm r]

theorem ip_smul_right (c : ℝ) (p r : Wave N) : ip p (c • r) = c * ip p r := by rw [hip.symm, hip.smul, hip.symm r]

theorem ip_zero_right (p : Wave N) : ip p 0 = 0 := by
  have := ip_smul_right hip 0 p 0
  rwa [zero_smul, zero_mul] at this

theorem ip_raise (i : Fin N) (p r : Wave N) : ip (raise i p) r = ip p (lower i r) := by
  unfold raise lower
  rw [hip.smul, ip_smul_right hip, sub_eq_add_neg, hip.add, ← neg_one_smul ℝ (slope i p), hip.smul, ip_add_right hip, hip.coord,
    hip.slope]
  ring

theorem ip_number (i : Fin N) (n : Fin N → Nat) : raise i (lower i (oscState n)) = (n i : ℝ) • oscState n := by
  apply amp_injective
  rw [amp_raise_lop, amp_lower_lop, amp_smul, amp_oscState]
  funext m
  simp only [lop_apply, co, net, Bool.false_eq_true, if_false, if_true, sub_neg_eq_add, Pi.smul_apply, smul_eq_mul, one, one_mul,
    sub_add_cancel, Pi.sub_apply]
  split_ifs with h
  · rw [h]; simp [toInt, unit_at]
  · simp

theorem ip_orth {n m : Fin N → Nat} (h : n ≠ m) : ip (oscState n) (oscState m) = 0 := by
  obtain ⟨i, hi⟩ : ∃ i, n i ≠ m i := Function.ne_iff.1 h
  have e1 : ip (raise i (lower i (oscState n))) (oscState m) = (n i : ℝ) * ip (oscState n) (oscState m) := by
    rw [ip_number hip, hip.smul]
  have e2 : ip (raise i (lower i (oscState n))) (oscState m) = (m i : ℝ) * ip (oscState n) (oscState m) := by
    rw [ip_raise hip, hip.symm, ← ip_raise hip, hip.symm, ip_number hip, ip_smul_right hip]
  have : ((n i : ℝ) - m i) * ip (oscState n) (oscState m) = 0 := by linear_combination e2 - e1
  rcases mul_eq_zero.1 this with h0 | h0
  · exact absurd (by exact_mod_cast sub_eq_zero.1 h0) hi
  · exact h0

theorem ip_norm (n : Fin N → Nat) : ip (oscState n) (oscState n) = wt (toInt n) * ip (oscState 0) (oscState 0) := by
  induction n using occ_induction with
  | h0 => simp [wt, toInt]
  | hs n i ih =>
    rw [toInt_update, wt_add i (by simp [toInt])]
    nth_rw 1 [← raise_osc]
    rw [ip_raise hip, lower_osc, ip_smul_right hip, ih]
    simp only [toInt, Int.cast_natCast]
    ring

theorem ip_osc (n : Fin N → Nat) (p : Wave N) : ip (oscState n) p = amp p (toInt n) * ip (oscState n) (oscState n) := by
  obtain ⟨c, rfl⟩ := (Finsupp.mem_span_range_iff_exists_finsupp).1 (oscState_span p)
  unfold Finsupp.sum
  rw [amp_sum, Finset.sum_apply, sum_mul]
  have : ∀ s : Finset (Fin N → Nat), ip (oscState n) (∑ m ∈ s, c m • oscState m) = ∑ m ∈ s, c m * ip (oscState n) (oscState m) := by
    intro s
    induction s using Finset.induction_on with
    | empty => simp [ip_zero_right hip]
    | insert a s ha ih => rw [sum_insert ha, sum_insert ha, ip_add_right hip, ip_smul_right hip, ih]
  rw [this]
  refine sum_congr rfl fun m _ => ?_
  rw [amp_smul, Pi.smul_apply, amp_oscState, smul_eq_mul]
  by_cases h : n = m
  · subst h; rw [one_self, mul_one]
  · rw [ip_orth hip h, one, if_neg (fun e => h (toInt_inj e))]; ring

theorem ip_ground : 0 < ip (oscState (0 : Fin N → Nat)) (oscState 0) := by
  apply hip.pos
  intro h
  have := congrFun (congrArg amp h) (toInt 0)
  rw [amp_oscState, one_self, show (0 : Wave N) = (0 : ℝ) • 0 by simp, amp_smul] at this
  simp at this

/-- The mean of two matrix elements, for normalised states. -/
theorem ip_mean (a b : Fin N → Nat) (x y : ℝ) :
    ((x * ip (oscState b) (oscState b) + y * ip (oscState a) (oscState a)) / 2) /
      (Real.sqrt (ip (oscState a) (oscState a)) * Real.sqrt (ip (oscState b) (oscState b))) =
    (x * Real.sqrt (wt (toInt b) / wt (toInt a)) + y * Real.sqrt (wt (toInt a) / wt (toInt b))) / 2 := by
  have p0 := ip_ground hip
  have pa := wt_pos (toInt a)
  have pb := wt_pos (toInt b)
  rw [ip_norm hip a, ip_norm hip b]
  generalize ip (oscState 0) (oscState 0) = z at *
  generalize wt (toInt a) = u at *
  generalize wt (toInt b) = v at *
  rw [Real.sqrt_mul pa.le, Real.sqrt_mul pb.le, Real.sqrt_div pa.le, Real.sqrt_div pb.le]
  have sa := Real.sqrt_pos.2 pa
  have sb := Real.sqrt_pos.2 pb
  have sz := Real.sqrt_pos.2 p0
  have ea := Real.sq_sqrt pa.le
  have eb := Real.sq_sqrt pb.le
  have ez := Real.sq_sqrt p0.le
  generalize Real.sqrt u = U at *
  generalize Real.sqrt v = V at *
  generalize Real.sqrt z = Z at *
  rw [← ea, ← eb, ← ez]
  field_simp

end

/-- The amplitudes of the part of second order of the Hamiltonian. -/
theorem amp_second (w : Nat → ℝ) (ψ : Nat → Nat → Nat → Nat → ℝ) (ζ : Nat → Nat → Nat → ℝ) (B : Nat → ℝ) (a : Fin N → Nat)
    (m : Fin N → ℤ) : amp (quartic ψ (oscState a) + coriolis w ζ B (oscState a)) m =
      qua (fun i j k l : Fin N => ψ i j k l) (one (toInt a)) m - ∑ x ∈ range 3, B x *
        ang (fun i : Fin N => w i) (fun k l => ζ k l x) (ang (fun i : Fin N => w i) (fun k l => ζ k l x) (one (toInt a))) m := by
  rw [amp_add, Pi.add_apply, amp_quartic, amp_coriolis, amp_oscState]
  ring

theorem resonates_iff (R : Nat → Nat → Nat → Prop) (a m : Fin N → Nat) :
    Resonates R a m ↔ Shift (fun i j k : Fin N => R i j k) (toInt m - toInt a) := by
  constructor
  · rintro ⟨i, j, k, hr, h | h⟩
    · refine ⟨i, j, k, hr, .inl (funext fun v => ?_)⟩
      have := h v
      simp only [Pi.sub_apply, Pi.add_apply, toInt, unit_at]
      split_ifs at this ⊢ <;> omega
    · refine ⟨i, j, k, hr, .inr (funext fun v => ?_)⟩
      have := h v
      simp only [Pi.sub_apply, Pi.add_apply, Pi.neg_apply, toInt, unit_at]
      split_ifs at this ⊢ <;> omega
  · rintro ⟨i, j, k, hr, h | h⟩
    · refine ⟨i, j, k, hr, .inl fun v => ?_⟩
      have := congrFun h v
      simp only [Pi.sub_apply, Pi.add_apply, toInt, unit_at] at this
      split_ifs at this ⊢ <;> omega
    · refine ⟨i, j, k, hr, .inr fun v => ?_⟩
      have := congrFun h v
      simp only [Pi.sub_apply, Pi.add_apply, Pi.neg_apply, toInt, unit_at] at this
      split_ifs at this ⊢ <;> omega

theorem amp_response {R : Nat → Nat → Nat → Prop} {w : Nat → ℝ} {φ : Nat → Nat → Nat → ℝ} {a : Fin N → Nat} {p : Wave N}
    (h : Response R w φ a p) : amp p = -dia (inv (fun i : Fin N => w i) fun i j k : Fin N => R i j k) (toInt a)
      (cub (fun i j k : Fin N => φ i j k) (one (toInt a))) := by
  classical
  obtain ⟨c, h1, -, rfl⟩ := h
  have e : cub (fun i j k : Fin N => φ i j k) (one (toInt a)) = ∑ m ∈ c.support, c m • one (toInt m) := by
    rw [← amp_oscState, ← amp_cubic, h1, Finsupp.sum, amp_sum]
    exact sum_congr rfl fun m _ => by rw [amp_smul, amp_oscState]
  rw [e, map_sum, ← sum_neg_distrib, Finsupp.sum, amp_sum]
  refine sum_congr rfl fun m _ => ?_
  rw [map_smul]
  have d1 : dia (inv (fun i : Fin N => w i) fun i j k : Fin N => R i j k) (toInt a) (one (toInt m)) =
      inv (fun i : Fin N => w i) (fun i j k : Fin N => R i j k) (toInt m - toInt a) • one (toInt m) := by
    funext x
    rw [dia_apply, Pi.smul_apply, smul_eq_mul, one]
    split_ifs with hx
    · rw [hx]; ring
    · ring
  rw [d1]
  split_ifs with hr
  · rw [inv, fracUnless, if_pos ((resonates_iff R a m).1 hr), show (0 : Wave N) = (0 : ℝ) • 0 by simp, amp_smul]
    simp
  · rw [inv, frac_no (fun hs => hr ((resonates_iff R a m).2 hs)), gap_shift, gap_level, amp_smul, amp_oscState, smul_smul,
      ← neg_smul]
    congr 1
    rw [show ∑ i : Fin N, w i * (a i : ℝ) - ∑ i : Fin N, w i * (m i : ℝ) = -(level w (toInt m) - level w (toInt a)) by
      unfold level
      rw [← sum_sub_distrib, ← sum_sub_distrib, ← sum_neg_distrib]
      exact sum_congr rfl fun i _ => by simp only [toInt, Int.cast_natCast]; ring, div_neg]
    ring

end Verif.Osc
