import Verif.Lemmas.VanVleckCode
import Mathlib.Algebra.BigOperators.Finprod

/-!
# Existence of the scalar product and of the states of first order

Helpers for C108.
-/

namespace Verif.Osc

open Finset

variable {N : Nat}

/-- The scalar product in which the states of the oscillators are orthogonal, with squared length `Π n!`. -/
noncomputable def oscProduct (p r : Wave N) : ℝ := ∑ᶠ n : Fin N → Nat, wt (toInt n) * (amp p (toInt n) * amp r (toInt n))

theorem amp_finite (p : Wave N) : (Function.support fun n : Fin N → Nat => amp p (toInt n)).Finite := by
  obtain ⟨c, rfl⟩ := (Finsupp.mem_span_range_iff_exists_finsupp).1 (oscState_span p)
  refine c.support.finite_toSet.subset fun n hn => ?_
  by_contra hc
  apply hn
  show amp (c.sum fun i a => a • oscState i) (toInt n) = 0
  unfold Finsupp.sum
  rw [amp_sum, Finset.sum_apply]
  refine sum_eq_zero fun m hm => ?_
  rw [amp_smul, Pi.smul_apply, amp_oscState, one, if_neg, smul_zero]
  intro e
  exact hc (by rw [toInt_inj e]; exact hm)

theorem oscProduct_finite (p r : Wave N) :
    (Function.support fun n : Fin N → Nat => wt (toInt n) * (amp p (toInt n) * amp r (toInt n))).Finite :=
  (amp_finite p).subset fun n hn h => hn (by
    show wt (toInt n) * (amp p (toInt n) * amp r (toInt n)) = 0
    rw [show amp p (toInt n) = 0 from h, zero_mul, mul_zero])

theorem oscProduct_add (p q r : Wave N) : oscProduct (p + q) r = oscProduct p r + oscProduct q r := by
  unfold oscProduct
  rw [← finsum_add_distrib (oscProduct_finite p r) (oscProduct_finite q r)]
  exact finsum_congr fun n => by rw [amp_add, Pi.add_apply]; ring

theorem oscProduct_smul (c : ℝ) (p r : Wave N) : oscProduct (c • p) r = c * oscProduct p r := by
  unfold oscProduct
  rw [← smul_eq_mul, smul_finsum]
  exact finsum_congr fun n => by rw [amp_smul, Pi.smul_apply, smul_eq_mul, smul_eq_mul]; ring

theorem oscProduct_symm (p r : Wave N) : oscProduct p r = oscProduct r p :=
  finsum_congr fun n => by ring

theorem oscProduct_osc (n : Fin N → Nat) (r : Wave N) : oscProduct (oscState n) r = wt (toInt n) * amp r (toInt n) := by
  unfold oscProduct
  rw [finsum_eq_single _ n fun m hm => by
    rw [amp_oscState, one, if_neg (fun e => hm (toInt_inj e))]; ring, amp_oscState, one_self, one_mul]

theorem oscProduct_raise (i : Fin N) (p r : Wave N) : oscProduct (raise i p) r = oscProduct p (lower i r) := by
  have radd : ∀ x y : Wave N, raise i (x + y) = raise i x + raise i y := fun x y => amp_injective (by
    rw [amp_add, amp_raise_lop, amp_raise_lop, amp_raise_lop, amp_add, map_add])
  have rsmul : ∀ (c : ℝ) (x : Wave N), raise i (c • x) = c • raise i x := fun c x => amp_injective (by
    rw [amp_smul, amp_raise_lop, amp_raise_lop, amp_smul, map_smul])
  refine Submodule.span_induction (p := fun x _ => oscProduct (raise i x) r = oscProduct x (lower i r)) ?_ ?_ ?_ ?_
    (oscState_span p)
  · rintro _ ⟨n, rfl⟩
    rw [raise_osc, oscProduct_osc, oscProduct_osc, amp_lower_lop, toInt_update, wt_add i (by simp [toInt]), lop_apply]
    simp only [co, net, Bool.false_eq_true, if_false, sub_neg_eq_add]
    ring
  · have := rsmul 0 0
    rw [zero_smul, zero_smul] at this
    rw [this, ← zero_smul ℝ (0 : Wave N), oscProduct_smul, oscProduct_smul, zero_mul, zero_mul]
  · intro x y _ _ hx hy
    rw [radd, oscProduct_add, oscProduct_add, hx, hy]
  · intro c x _ hx
    rw [rsmul, oscProduct_smul, oscProduct_smul, hx]

theorem oscProduct_scalar : ScalarProduct (oscProduct (N := N)) := by
  have lowerL : ∀ (i : Fin N) (p r : Wave N), oscProduct (lower i p) r = oscProduct p (raise i r) := fun i p r => by
    rw [oscProduct_symm, ← oscProduct_raise, oscProduct_symm]
  have addR : ∀ p q r : Wave N, oscProduct p (q + r) = oscProduct p q + oscProduct p r := fun p q r => by
    rw [oscProduct_symm, oscProduct_add, oscProduct_symm q, oscProduct_symm r]
  have smulR : ∀ (c : ℝ) (p r : Wave N), oscProduct p (c • r) = c * oscProduct p r := fun c p r => by
    rw [oscProduct_symm, oscProduct_smul, oscProduct_symm r]
  have ec : ∀ (i : Fin N) (p : Wave N), coord i p = rt • (raise i p + lower i p) := fun i p => amp_injective (by
    rw [amp_coord, amp_smul, amp_add, amp_raise_lop, amp_lower_lop, q_lop])
  have es : ∀ (i : Fin N) (p : Wave N), slope i p = rt • (lower i p + (-1 : ℝ) • raise i p) := fun i p => amp_injective (by
    rw [amp_slope, amp_smul, amp_add, amp_smul, amp_raise_lop, amp_lower_lop, d_lop, neg_one_smul, sub_eq_add_neg])
  refine ⟨oscProduct_add, oscProduct_smul, oscProduct_symm, fun p hp => ?_, fun i p r => ?_, fun i p r => ?_⟩
  · have nn : ∀ n : Fin N → Nat, 0 ≤ wt (toInt n) * (amp p (toInt n) * amp p (toInt n)) := fun n =>
      mul_nonneg (wt_pos _).le (mul_self_nonneg _)
    obtain ⟨n, hn⟩ : ∃ n : Fin N → Nat, amp p (toInt n) ≠ 0 := by
      by_contra hc
      push Not at hc
      apply hp
      apply amp_injective
      funext m
      rw [show (0 : Wave N) = (0 : ℝ) • 0 by simp, amp_smul, Pi.smul_apply, zero_smul]
      by_cases hm : ∀ v, 0 ≤ m v
      · obtain ⟨x, rfl⟩ := nonneg_toInt hm
        exact hc x
      · push Not at hm
        obtain ⟨v, hv⟩ := hm
        exact amp_neg _ hv
    refine lt_of_lt_of_le ?_ (single_le_finsum n (oscProduct_finite p p) nn)
    exact mul_pos (wt_pos _) (mul_self_pos.2 hn)
  · rw [ec, ec, oscProduct_smul, oscProduct_add, smulR, addR, oscProduct_raise, lowerL]; ring
  · rw [es, es, oscProduct_smul, oscProduct_add, oscProduct_smul, smulR, addR, smulR, oscProduct_raise, lowerL]; ring

theorem cub_support {φ : Nat → Nat → Nat → ℝ} {n m : Fin N → ℤ} (h : cub (fun i j k : Fin N => φ i j k) (one n) m ≠ 0) :
    ∃ x y z : Leg (Fin N), net x + net y + net z = m - n := by
  rw [cub_cube, Pi.smul_apply, smul_eq_mul, cube_apply] at h
  obtain ⟨x, -, h⟩ := exists_ne_zero_of_sum_ne_zero (right_ne_zero_of_mul h)
  obtain ⟨y, -, h⟩ := exists_ne_zero_of_sum_ne_zero h
  obtain ⟨z, -, h⟩ := exists_ne_zero_of_sum_ne_zero h
  refine ⟨x, y, z, ?_⟩
  simp only [lop_apply, one] at h
  by_contra hc
  apply h
  rw [if_neg, mul_zero, mul_zero, mul_zero, mul_zero]
  intro e
  apply hc
  rw [← e]; abel

theorem response_exists {R : Nat → Nat → Nat → Prop} {w : Nat → ℝ} (φ : Nat → Nat → Nat → ℝ) (hp : ∀ i < N, 0 < w i)
    (hw : OnlyListed R N w) (a : Fin N → Nat) : ∃ p, Response R w φ a p := by
  obtain ⟨c, hc⟩ := (Finsupp.mem_span_range_iff_exists_finsupp).1 (oscState_span (cubic φ (oscState a)))
  refine ⟨_, c, hc.symm, fun m hm hr he => ?_, rfl⟩
  have h0 : cub (fun i j k : Fin N => φ i j k) (one (toInt a)) (toInt m) ≠ 0 := by
    rw [← amp_oscState, ← amp_cubic, ← hc, Finsupp.sum, amp_sum, Finset.sum_apply]
    rw [sum_eq_single_of_mem m (Finsupp.mem_support_iff.2 hm) fun x _ hx => by
      rw [amp_smul, Pi.smul_apply, amp_oscState, one, if_neg (fun e => hx (toInt_inj e).symm), smul_zero]]
    rwa [amp_smul, Pi.smul_apply, amp_oscState, one_self, smul_eq_mul, mul_one]
  obtain ⟨x, y, z, hs⟩ := cub_support h0
  rw [resonates_iff] at hr
  have hgap : gap (fun i : Fin N => w i) 0 (toInt m - toInt a) = 0 := by
    unfold gap
    simp only [Pi.zero_apply, Pi.sub_apply, toInt, Int.cast_zero, sub_zero, Int.cast_sub, Int.cast_natCast, mul_sub, sum_sub_distrib]
    linarith
  rw [← hs] at hr hgap
  have gn : ∀ (i : Fin N) (u : Bool), gap (fun i : Fin N => w i) 0 (net (i, u)) = if u then w i else -w i := by
    intro i u
    unfold gap
    cases u <;> simp [net, unit_at]
  have ga : ∀ s t : Fin N → ℤ, gap (fun i : Fin N => w i) 0 (s + t) =
      gap (fun i : Fin N => w i) 0 s + gap (fun i : Fin N => w i) 0 t := by
    intro s t
    unfold gap
    rw [← sum_add_distrib]
    exact sum_congr rfl fun v _ => by simp; ring
  obtain ⟨i, u⟩ := x
  obtain ⟨j, v⟩ := y
  obtain ⟨k, t⟩ := z
  rw [ga, ga, gn, gn, gn] at hgap
  have pi := hp i i.2
  have pj := hp j j.2
  have pk := hp k k.2
  have key : ∀ e f g : Fin N, w e + w f - w g = 0 → R e f g := by
    intro e f g h
    by_contra hn
    exact hw e f g e.2 f.2 g.2 hn h
  cases u <;> cases v <;> cases t <;> simp only [net, if_true, if_false, Bool.false_eq_true] at hr hgap
  · linarith
  · exact hr ⟨i, j, k, key i j k (by linarith), .inr (by abel)⟩
  · exact hr ⟨i, k, j, key i k j (by linarith), .inr (by abel)⟩
  · exact hr ⟨j, k, i, key j k i (by linarith), .inl (by abel)⟩
  · exact hr ⟨j, k, i, key j k i (by linarith), .inr (by abel)⟩
  · exact hr ⟨i, k, j, key i k j (by linarith), .inl (by abel)⟩
  · exact hr ⟨i, j, k, key i j k (by linarith), .inl (by abel)⟩
  · linarith

end Verif.Osc
