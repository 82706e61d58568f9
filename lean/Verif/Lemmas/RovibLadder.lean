import Verif.Lemmas.LadderForm

/-!
# Matrix elements for vibration and rotation together

Helpers for C103.
-/

namespace Verif.Osc

open Finset

variable {σ : Type} [Fintype σ] [DecidableEq σ] (n : σ → ℤ) (w : σ → ℝ)

theorem L_jj (j : σ) (h : w j ≠ 0) : q j (res w n (q j (one n))) n = 1 / (2 * w j) := by
  refine (at_sl1 n _ j).trans ?_
  simp only [q_sl1, res_sl1, one_sl1]
  norm_num
  field_simp
  ring_nf
  simp only [rt2]
  ring

theorem L_jjj_j (j : σ) (h : w j ≠ 0) : q j (q j (q j (res w n (q j (one n))))) n = 3 / 2 * ((n j : ℝ) + 1 / 2) / w j := by
  refine (at_sl1 n _ j).trans ?_
  simp only [q_sl1, res_sl1, one_sl1]
  norm_num
  field_simp
  ring_nf
  simp only [rt4]
  ring

theorem L_j_jjj (j : σ) (h : w j ≠ 0) : q j (res w n (q j (q j (q j (one n))))) n = 3 / 2 * ((n j : ℝ) + 1 / 2) / w j := by
  refine (at_sl1 n _ j).trans ?_
  simp only [q_sl1, res_sl1, one_sl1]
  norm_num
  field_simp
  ring_nf
  simp only [rt4]
  ring

theorem L_llj_j {l j : σ} (hlj : l ≠ j) (h : w j ≠ 0) :
    q l (q l (q j (res w n (q j (one n))))) n = ((n l : ℝ) + 1 / 2) / (2 * w j) := by
  refine (at_sl2 n _ l j).trans ?_
  simp only [q_sl2a n _ hlj, q_sl2b n _ hlj, res_sl2, one_sl2 n hlj]
  norm_num
  field_simp
  ring_nf
  simp only [rt4]
  ring

theorem L_j_llj {l j : σ} (hlj : l ≠ j) (h : w j ≠ 0) :
    q j (res w n (q l (q l (q j (one n))))) n = ((n l : ℝ) + 1 / 2) / (2 * w j) := by
  refine (at_sl2 n _ l j).trans ?_
  simp only [q_sl2a n _ hlj, q_sl2b n _ hlj, res_sl2, one_sl2 n hlj]
  norm_num
  field_simp
  ring_nf
  simp only [rt4]
  ring

theorem Q_ii (i : σ) : q i (q i (one n)) n = (n i : ℝ) + 1 / 2 := by
  refine (at_sl1 n _ i).trans ?_
  simp only [q_sl1, one_sl1]
  norm_num
  ring_nf
  simp only [rt2]
  ring

theorem S_klkl {k l : σ} (h : k ≠ l) (hs : w k + w l ≠ 0) :
    q k (d l (res w n (q k (d l (one n))))) n =
      -((((n k : ℝ) + 1) * (n l + 1) - n k * n l) / (w k + w l) + (((n k : ℝ) + 1) * n l - n k * (n l + 1)) / (w k - w l)) / 4 := by
  refine (at_sl2 n _ k l).trans ?_
  simp only [q_sl2a n _ h, q_sl2b n _ h, d_sl2a n _ h, d_sl2b n _ h, res_sl2, one_sl2 n h]
  norm_num
  have e1 : -w k + -w l = -(w k + w l) := by ring
  have e2 : -w k + w l = -(w k - w l) := by ring
  have e3 : w k + -w l = w k - w l := by ring
  rw [e1, e2, e3]
  generalize w k + w l = p at *
  generalize w k - w l = r at *
  by_cases hd : r = 0
  · rw [hd]
    simp only [neg_zero, div_zero, zero_add, add_zero, mul_zero, sub_zero, neg_neg]
    field_simp
    ring_nf
    simp only [rt4]
    ring
  · field_simp
    ring_nf
    simp only [rt4]
    ring

theorem S_kllk {k l : σ} (h : k ≠ l) (hs : w k + w l ≠ 0) :
    q k (d l (res w n (q l (d k (one n))))) n =
      -((((n k : ℝ) + 1) * (n l + 1) - n k * n l) / (w k + w l) - (((n k : ℝ) + 1) * n l - n k * (n l + 1)) / (w k - w l)) / 4 := by
  refine (at_sl2 n _ k l).trans ?_
  simp only [q_sl2a n _ h, q_sl2b n _ h, d_sl2a n _ h, d_sl2b n _ h, res_sl2, one_sl2 n h]
  norm_num
  have e1 : -w k + -w l = -(w k + w l) := by ring
  have e2 : -w k + w l = -(w k - w l) := by ring
  have e3 : w k + -w l = w k - w l := by ring
  rw [e1, e2, e3]
  generalize w k + w l = p at *
  generalize w k - w l = r at *
  by_cases hd : r = 0
  · rw [hd]
    simp only [neg_zero, div_zero, zero_add, add_zero, mul_zero, sub_zero, neg_neg]
    field_simp
    ring_nf
    simp only [rt4]
    ring
  · field_simp
    ring_nf
    simp only [rt4]
    ring

/-- `Σ c_k q_k`. -/
noncomputable def lin (c : σ → ℝ) (f : (σ → ℤ) → ℝ) : (σ → ℤ) → ℝ := ∑ k, c k • q k f

/-- `Σ c_kl q_k q_l`. -/
noncomputable def quad (c : σ → σ → ℝ) (f : (σ → ℤ) → ℝ) : (σ → ℤ) → ℝ := ∑ k, ∑ l, c k l • q k (q l f)

theorem lin_at (c : σ → ℝ) (f : (σ → ℤ) → ℝ) (m : σ → ℤ) : lin c f m = ∑ k, c k * q k f m := by
  simp only [lin, Pi.smul_apply, Finset.sum_apply, smul_eq_mul]

theorem quad_at (c : σ → σ → ℝ) (f : (σ → ℤ) → ℝ) (m : σ → ℤ) : quad c f m = ∑ k, ∑ l, c k l * q k (q l f) m := by
  simp only [quad, Pi.smul_apply, Finset.sum_apply, smul_eq_mul]

theorem odd_inj {i j : σ} (h : odd i = odd j) : i = j := by
  by_contra hc
  have := congrFun h i
  simp [odd, hc] at this

theorem odd_add_zero {i j : σ} (h : odd i + odd j = 0) : i = j := by
  refine odd_inj (funext fun v => ?_)
  have := congrFun h v
  simp only [Pi.add_apply, Pi.zero_apply] at this
  revert this
  generalize odd i v = x
  generalize odd j v = y
  revert x y
  decide

variable {w}

theorem quad_value (c : σ → σ → ℝ) : quad c (one n) n = ∑ k, c k k * ((n k : ℝ) + 1 / 2) := by
  rw [quad_at]
  refine sum_congr rfl fun k _ => ?_
  rw [sum_eq_single k]
  · rw [Q_ii]
  · intro l _ hl
    have : q k (q l (one n)) n = 0 := by
      by_contra hc
      have := par_at (par_q (par_q (par_one n) l) k) hc
      rw [add_zero] at this
      exact hl (odd_add_zero this).symm
    rw [this, mul_zero]
  · intro h; exact absurd (mem_univ k) h

theorem lin_value (hw : ∀ i, w i ≠ 0) (c : σ → ℝ) : lin c (res w n (lin c (one n))) n = ∑ k, c k ^ 2 / (2 * w k) := by
  rw [lin_at]
  refine sum_congr rfl fun k _ => ?_
  simp only [lin, map_sum, map_smul, Finset.sum_apply, Pi.smul_apply, smul_eq_mul]
  rw [sum_eq_single k]
  · rw [L_jj n w k (hw k)]; ring
  · intro l _ hl
    have : q k (res w n (q l (one n))) n = 0 := by
      by_contra hc
      have := par_at (par_q (par_res w (par_q (par_one n) l)) k) hc
      rw [add_zero] at this
      exact hl (odd_add_zero this).symm
    rw [this, mul_zero]
  · intro h; exact absurd (mem_univ k) h

theorem par3 {a b c j : σ} (h : odd j + (odd a + (odd b + odd c)) = 0) : odd a + (odd b + odd c) = odd j := by
  funext v
  have := congrFun h v
  simp only [Pi.add_apply, Pi.zero_apply] at this ⊢
  revert this
  generalize odd a v = x
  generalize odd b v = y
  generalize odd c v = z
  generalize odd j v = t
  revert x y z t
  decide

theorem three_value {φ : σ → σ → σ → ℝ} (hφ : Sy3 φ) (g : σ → σ → σ → ℝ) (j : σ)
    (hg1 : ∀ a b c, g a b c = g b a c) (hg2 : ∀ a b c, g a b c = g a c b)
    (h0 : ∀ a b c, g a b c ≠ 0 → odd a + (odd b + odd c) = odd j)
    (hj : g j j j = 3 / 2 * ((n j : ℝ) + 1 / 2) / w j)
    (hl : ∀ l, l ≠ j → g l l j = ((n l : ℝ) + 1 / 2) / (2 * w j)) :
    1 / 6 * ∑ a, ∑ b, ∑ c, φ a b c * g a b c = ∑ l, φ l l j * ((n l : ℝ) + 1 / 2) / (4 * w j) := by
  rw [sum3_pair (fun a b c => φ a b c * g a b c) j fun a b c h => h0 a b c (right_ne_zero_of_mul h),
    sum_off (fun l => φ l l j * ((n l : ℝ) + 1 / 2) / (4 * w j)) j, mul_add, hj, mul_sum]
  congr 1
  · ring
  · refine sum_congr rfl fun l _ => ?_
    split
    · rename_i h
      rw [← (hφ l l j).2, (hφ j l l).1, ← (hφ l l j).2, hg2 l j l, hg1 j l l, hg2 l j l, hl l h]
      ring
    · ring

theorem cub_lin {φ : σ → σ → σ → ℝ} (hφ : Sy3 φ) (hw : ∀ i, w i ≠ 0) (c : σ → ℝ) :
    cub φ (res w n (lin c (one n))) n = ∑ j, ∑ l, c j * (φ l l j * ((n l : ℝ) + 1 / 2) / (4 * w j)) := by
  have : cub φ (res w n (lin c (one n))) n = ∑ j, c j * (1 / 6 * ∑ x, ∑ y, ∑ z, φ x y z *
      q x (q y (q z (res w n (q j (one n))))) n) := by
    rw [cub_at]
    simp only [lin, map_sum, map_smul, Finset.sum_apply, Pi.smul_apply, smul_eq_mul, mul_sum]
    conv_rhs => rw [sum_comm]
    refine sum_congr rfl fun x _ => ?_
    conv_rhs => rw [sum_comm]
    refine sum_congr rfl fun y _ => ?_
    conv_rhs => rw [sum_comm]
    refine sum_congr rfl fun z _ => sum_congr rfl fun j _ => ?_
    ring
  rw [this]
  refine sum_congr rfl fun j _ => ?_
  rw [← mul_sum]
  congr 1
  refine three_value n hφ _ j (fun a b c => by rw [q_comm a b]) (fun a b c => by rw [q_comm b c]) (fun a b c h => ?_)
    (L_jjj_j n w j (hw j)) (fun l hl => L_llj_j n w hl (hw j))
  have := par_at (par_q (par_q (par_q (par_res w (par_q (par_one n) j)) c) b) a) h
  refine par3 (j := j) ?_
  rw [← this]
  abel

theorem lin_cub {φ : σ → σ → σ → ℝ} (hφ : Sy3 φ) (hw : ∀ i, w i ≠ 0) (c : σ → ℝ) :
    lin c (res w n (cub φ (one n))) n = ∑ j, ∑ l, c j * (φ l l j * ((n l : ℝ) + 1 / 2) / (4 * w j)) := by
  rw [lin_at]
  refine sum_congr rfl fun j _ => ?_
  rw [← mul_sum]
  congr 1
  simp only [cub, map_smul, map_sum, Finset.sum_apply, Pi.smul_apply, smul_eq_mul]
  refine three_value n hφ (fun x y z => q j (res w n (q x (q y (q z (one n))))) n) j
    (fun a b c => by rw [q_comm a b]) (fun a b c => by rw [q_comm b c]) (fun a b c h => ?_)
    (L_j_jjj n w j (hw j)) (fun l hl => L_j_llj n w hl (hw j))
  have := par_at (par_q (par_res w (par_q (par_q (par_q (par_one n) c) b) a)) j) h
  refine par3 (j := j) ?_
  rw [← this]
  abel

/-- Two modes of the same frequency are not coupled by `s`, or hold no quanta. -/
def Apart (w : σ → ℝ) (s : σ → σ → ℝ) (n : σ → ℤ) : Prop :=
  ∀ i j, i ≠ j → w i ≠ w j ∨ s i j = 0 ∨ (n i = 0 ∧ n j = 0)

theorem ang_second (hp : ∀ i, 0 < w i) {s : σ → σ → ℝ} (hs : ∀ k l, s k l = -s l k) :
    ang w s (res w n (ang w s (one n))) n =
      D2 fun k l => s k l ^ 2 * ((3 * w k ^ 2 + w l ^ 2) / (w k ^ 2 - w l ^ 2)) / (2 * w k) * ((n k : ℝ) + 1 / 2) := by
  have h0 : ∀ k, s k k = 0 := fun k => by have := hs k k; linarith
  have : ang w s (res w n (ang w s (one n))) n = ∑ k, ∑ l, ∑ k', ∑ l',
      (s k l * Real.sqrt (w l / w k)) * (s k' l' * Real.sqrt (w l' / w k')) * q k (d l (res w n (q k' (d l' (one n))))) n := by
    simp only [ang, map_smul, map_sum, Pi.smul_apply, Finset.sum_apply, smul_eq_mul, mul_sum, mul_assoc]
  rw [this, sum4_pair (fun k l k' l' => (s k l * Real.sqrt (w l / w k)) * (s k' l' * Real.sqrt (w l' / w k')) *
    q k (d l (res w n (q k' (d l' (one n))))) n)]
  · simp only [h0, zero_mul, sum_const_zero, zero_add]
    have e : ∀ k l, k ≠ l → s k l * Real.sqrt (w l / w k) * (s k l * Real.sqrt (w l / w k)) *
        q k (d l (res w n (q k (d l (one n))))) n + s k l * Real.sqrt (w l / w k) * (s l k * Real.sqrt (w k / w l)) *
        q k (d l (res w n (q l (d k (one n))))) n = s k l ^ 2 *
        ((w l / w k) * (-((((n k : ℝ) + 1) * (n l + 1) - n k * n l) / (w k + w l) +
            (((n k : ℝ) + 1) * n l - n k * (n l + 1)) / (w k - w l)) / 4) +
          ((((n k : ℝ) + 1) * (n l + 1) - n k * n l) / (w k + w l) -
            (((n k : ℝ) + 1) * n l - n k * (n l + 1)) / (w k - w l)) / 4) := by
      intro k l hkl
      have hsum : w k + w l ≠ 0 := (add_pos (hp k) (hp l)).ne'
      rw [S_klkl n w hkl hsum, S_kllk n w hkl hsum, hs l k]
      have e1 : Real.sqrt (w l / w k) * Real.sqrt (w l / w k) = w l / w k :=
        Real.mul_self_sqrt (div_pos (hp l) (hp k)).le
      have e2 : Real.sqrt (w l / w k) * Real.sqrt (w k / w l) = 1 := by
        rw [← Real.sqrt_mul (div_pos (hp l) (hp k)).le, div_mul_div_comm, mul_comm (w l),
          div_self (mul_pos (hp k) (hp l)).ne', Real.sqrt_one]
      generalize (((n k : ℝ) + 1) * (n l + 1) - n k * n l) / (w k + w l) = X
      generalize (((n k : ℝ) + 1) * n l - n k * (n l + 1)) / (w k - w l) = Y
      linear_combination (s k l ^ 2 * (-(X + Y) / 4)) * e1 + s k l ^ 2 * ((X - Y) / 4) * e2
    refine D2_eq fun k l hkl => ?_
    rw [e k l hkl, e l k hkl.symm, hs l k]
    have hk := (hp k).ne'
    have hl := (hp l).ne'
    have hsum : w k + w l ≠ 0 := (add_pos (hp k) (hp l)).ne'
    by_cases he : w k = w l
    · rw [he]
      simp only [sub_self, div_zero, mul_zero, add_zero, zero_mul, zero_div, div_self hl]
      ring
    have hdif : w k - w l ≠ 0 := sub_ne_zero.2 he
    have hdif' : w l - w k ≠ 0 := sub_ne_zero.2 (Ne.symm he)
    rw [show w k ^ 2 - w l ^ 2 = (w k + w l) * (w k - w l) by ring,
      show w l ^ 2 - w k ^ 2 = -((w k + w l) * (w k - w l)) by ring, show w l - w k = -(w k - w l) by ring,
      show w l + w k = w k + w l by ring]
    field_simp
    ring
  · intro x y z t h
    have := par_at (par_q (par_d (par_res w (par_q (par_d (par_one n) t) z)) y) x) (right_ne_zero_of_mul h)
    rwa [add_zero] at this

end Verif.Osc
