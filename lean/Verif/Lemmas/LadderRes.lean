import Verif.Lemmas.LadderForm
import Verif.Spec.Xcalc
import Mathlib.Tactic.Push

/-!
# Inverse energy differences, those of resonances left out

Helpers for C102 and C104.
-/

namespace Verif.Osc

open Finset

variable {σ : Type} [Fintype σ] [DecidableEq σ]

/-- `s` is the change of the occupation numbers in a resonance. -/
def Shift (R : σ → σ → σ → Prop) (s : σ → ℤ) : Prop :=
  ∃ a b c, R a b c ∧ (s = unit a + unit b - unit c ∨ s = -(unit a + unit b - unit c))

/-- A list of resonances in which the order of the first two modes does not matter and the third mode is another one. -/
structure ResRel (R : σ → σ → σ → Prop) : Prop where
  symm : ∀ a b c, R a b c → R b a c
  off : ∀ a b c, R a b c → c ≠ a ∧ c ≠ b

/-- The inverse energy differences, those of resonances left out. -/
noncomputable def inv (w : σ → ℝ) (R : σ → σ → σ → Prop) (s : σ → ℤ) : ℝ := fracUnless (Shift R s) (gap w 0 s)

/-- The inverse of `w_a + w_b - w_c`. -/
noncomputable def frac (w : σ → ℝ) (R : σ → σ → σ → Prop) (a b c : σ) : ℝ := fracUnless (R a b c) (w a + w b - w c)

theorem unit_at (i v : σ) : unit i v = if v = i then 1 else 0 := by simp [unit, Pi.single_apply]

theorem shift_neg {R : σ → σ → σ → Prop} (s : σ → ℤ) : Shift R (-s) ↔ Shift R s := by
  constructor
  · rintro ⟨a, b, c, h, e | e⟩
    · exact ⟨a, b, c, h, .inr (by rw [← e, neg_neg])⟩
    · exact ⟨a, b, c, h, .inl (neg_injective e)⟩
  · rintro ⟨a, b, c, h, e | e⟩
    · exact ⟨a, b, c, h, .inr (by rw [e])⟩
    · exact ⟨a, b, c, h, .inl (by rw [e, neg_neg])⟩

theorem not_shift {R : σ → σ → σ → Prop} (hR : ResRel R) {s : σ → ℤ} (h : ∀ v, 0 ≤ s v) : ¬ Shift R s := by
  rintro ⟨a, b, c, hr, e | e⟩
  · have := h c
    obtain ⟨h1, h2⟩ := hR.off a b c hr
    rw [e] at this
    simp [unit_at, h1, h2] at this
  · have := h a
    obtain ⟨h1, h2⟩ := hR.off a b c hr
    rw [e] at this
    simp only [Pi.neg_apply, Pi.sub_apply, Pi.add_apply, unit_at, if_true, h1.symm, if_false] at this
    split at this <;> omega

theorem sum_unit (i : σ) : ∑ v, unit i v = 1 := by simp [unit_at]

theorem unit_two {a b c d : σ} (h : unit a + unit b = unit c + unit d) : (a = c ∧ b = d) ∨ (a = d ∧ b = c) := by
  have ha := congrFun h a
  have hb := congrFun h b
  have hc := congrFun h c
  have hd := congrFun h d
  simp only [Pi.add_apply, unit_at] at ha hb hc hd
  by_cases h1 : a = c
  · subst h1
    left
    refine ⟨rfl, ?_⟩
    by_contra hbd
    simp only [if_true, hbd, if_false] at hb
    split at hb <;> omega
  · by_cases h2 : a = d
    · subst h2
      right
      refine ⟨rfl, ?_⟩
      by_contra hbd
      simp only [if_true, hbd, if_false] at hb
      split at hb <;> omega
    · simp only [if_true, h1, h2, if_false] at ha
      split at ha <;> omega

theorem shift_iff {R : σ → σ → σ → Prop} (hR : ResRel R) (i j k : σ) : Shift R (unit i + unit j - unit k) ↔ R i j k := by
  refine ⟨?_, fun h => ⟨i, j, k, h, .inl rfl⟩⟩
  rintro ⟨a, b, c, hr, e | e⟩
  · obtain ⟨h1, h2⟩ := hR.off a b c hr
    have hk : c = k := by
      have := congrFun e c
      simp only [Pi.sub_apply, Pi.add_apply, unit_at, h1, h2, if_false, if_true] at this
      by_contra hc
      simp only [hc, if_false] at this
      split at this <;> split at this <;> omega
    subst hk
    have e' : unit i + unit j = unit a + unit b := sub_left_injective e
    rcases unit_two e' with ⟨rfl, rfl⟩ | ⟨rfl, rfl⟩
    · exact hr
    · exact hR.symm _ _ _ hr
  · exfalso
    have := congrArg (fun s : σ → ℤ => ∑ v, s v) e
    simp only [Pi.neg_apply, Pi.sub_apply, Pi.add_apply, sum_neg_distrib, sum_sub_distrib, sum_add_distrib, sum_unit] at this
    omega

theorem frac_no {P : Prop} (h : ¬ P) (x : ℝ) : fracUnless P x = 1 / x := if_neg h

theorem frac_iff {P Q : Prop} (h : P ↔ Q) {x y : ℝ} (e : x = y) : fracUnless P x = fracUnless Q y := by
  rw [propext h, e]

theorem gap_zero_neg (w : σ → ℝ) (s : σ → ℤ) : gap w 0 (-s) = -gap w 0 s := by
  unfold gap
  rw [← sum_neg_distrib]
  exact sum_congr rfl fun i _ => by simp

theorem gap_shift (w : σ → ℝ) (n m : σ → ℤ) : gap w 0 (m - n) = gap w n m := by
  unfold gap
  exact sum_congr rfl fun i _ => by simp

theorem frac_symm {w : σ → ℝ} {R : σ → σ → σ → Prop} (hR : ResRel R) (a b c : σ) : frac w R a b c = frac w R b a c :=
  frac_iff ⟨hR.symm a b c, hR.symm b a c⟩ (by ring)

theorem frac_off {w : σ → ℝ} {R : σ → σ → σ → Prop} (hR : ResRel R) (k l : σ) : frac w R k l k = 1 / w l := by
  rw [frac, frac_no (fun h => (hR.off _ _ _ h).1 rfl)]
  congr 1; ring

theorem inv_inv (w : σ → ℝ) {R : σ → σ → σ → Prop} (hR : ResRel R) : Inv w (frac w R) (inv w R) where
  odd s := by
    unfold inv fracUnless
    by_cases h : Shift R s
    · rw [if_pos h, if_pos ((shift_neg s).2 h), neg_zero]
    · rw [if_neg h, if_neg (fun h' => h ((shift_neg s).1 h')), gap_zero_neg, one_div_neg_eq_neg_one_div]
  s1 j := by
    rw [inv, frac_no (not_shift hR fun v => by simp only [sl1, zero_add, one_smul, unit_at]; split <;> omega)]
    simp only [sl1, gap_add, gap_self]; push_cast; congr 1; ring
  s3 j := by
    rw [inv, frac_no (not_shift hR fun v => by
      simp only [sl1, zero_add, Pi.smul_apply, unit_at, smul_eq_mul]; split <;> omega)]
    simp only [sl1, gap_add, gap_self]; push_cast; congr 1; ring
  t1 l j := by
    rw [inv, frac_no (not_shift hR fun v => by
      simp only [sl2, zero_add, zero_smul, one_smul, unit_at]; split <;> omega)]
    simp only [sl2, gap_add, gap_self]; push_cast; congr 1; ring
  t2 l j := by
    rw [inv, frac_no (not_shift hR fun v => by
      simp only [sl2, zero_add, Pi.add_apply, Pi.smul_apply, unit_at, smul_eq_mul]; split <;> split <;> omega)]
    simp only [sl2, gap_add, gap_self]; push_cast; congr 1; ring
  t3 l j := by
    refine frac_iff ?_ ?_
    · rw [← shift_iff hR]
      refine iff_of_eq (congrArg _ ?_)
      simp only [sl2, zero_add, two_smul, neg_smul, one_smul]; abel
    · simp only [sl2, gap_add, gap_self]; push_cast; ring
  u1 l m j := by
    rw [inv, frac_no (not_shift hR fun v => by
      simp only [sl3, zero_add, zero_smul, one_smul, unit_at]; split <;> omega)]
    simp only [sl3, gap_add, gap_self]; push_cast; congr 1; ring
  u2 a b c := by
    rw [inv, frac_no (not_shift hR fun v => by
      simp only [sl3, zero_add, Pi.add_apply, Pi.smul_apply, unit_at, smul_eq_mul]; split <;> split <;> split <;> omega)]
    simp only [sl3, gap_add, gap_self]; push_cast; congr 1; ring
  u3 a b c := by
    refine frac_iff ?_ ?_
    · rw [← shift_iff hR]
      refine iff_of_eq (congrArg _ ?_)
      simp only [sl3, zero_add, neg_smul, one_smul]; abel
    · simp only [sl3, gap_add, gap_self]; push_cast; ring
  u4 a b c := by
    refine frac_iff ?_ ?_
    · rw [← shift_iff hR]
      refine iff_of_eq (congrArg _ ?_)
      simp only [sl3, zero_add, neg_smul, one_smul]; abel
    · simp only [sl3, gap_add, gap_self]; push_cast; ring
  u5 a b c := by
    refine frac_iff ?_ ?_
    · rw [← shift_iff hR]
      refine iff_of_eq (congrArg _ ?_)
      simp only [sl3, zero_add, neg_smul, one_smul]; abel
    · simp only [sl3, gap_add, gap_self]; push_cast; ring

theorem resRel_false : ResRel fun _ _ _ : σ => False := ⟨fun _ _ _ h => h, fun _ _ _ h => h.elim⟩

theorem inv_false (w : σ → ℝ) (s : σ → ℤ) : inv w (fun _ _ _ => False) s = 1 / gap w 0 s :=
  frac_no (fun ⟨_, _, _, h, _⟩ => h) _

theorem res_inv (w : σ → ℝ) (n : σ → ℤ) : res w n = dia (inv w fun _ _ _ => False) n := by
  refine LinearMap.ext fun f => funext fun m => ?_
  rw [res_apply, dia_apply, inv_false, gap_shift, mul_one_div]

end Verif.Osc
