import Verif.Lemmas.HermiteSolve
import Verif.Lemmas.LadderRes
import Verif.Spec.Whole
import Mathlib.Algebra.BigOperators.Fin

/-!
# The second-order energy in the form of the formulas for the anharmonic constants

Helpers for C102 and C104.
-/

namespace Verif.Osc

open Finset

variable {N : Nat}

theorem D2_order (f : Fin N → Fin N → ℝ) (h : ∀ a b, f a b = f b a) :
    D2 f = 2 * ∑ a, ∑ b, if b < a then f a b else 0 := by
  have e : D2 f = (∑ a, ∑ b, if b < a then f a b else 0) + ∑ a, ∑ b, if a < b then f a b else 0 := by
    unfold D2
    rw [← sum_add_distrib]
    refine sum_congr rfl fun a _ => ?_
    rw [← sum_add_distrib]
    refine sum_congr rfl fun b _ => ?_
    rcases lt_trichotomy a b with h | h | h
    · simp [h, h.ne, h.not_gt]
    · simp [h]
    · simp [h, h.ne', h.not_gt]
  have e2 : (∑ a, ∑ b, if a < b then f a b else 0) = ∑ a, ∑ b, if b < a then f a b else 0 := by
    rw [sum_comm]
    refine sum_congr rfl fun a _ => sum_congr rfl fun b _ => ?_
    rw [h b a]
  rw [e, e2]; ring

theorem D3_order (f : Fin N → Fin N → Fin N → ℝ) (h : ∀ a b c, f a b c = f b a c ∧ f a b c = f a c b) :
    D3 f = 6 * ∑ a, ∑ b, ∑ c, if b < a ∧ c < b then f a b c else 0 := by
  set O := ∑ a, ∑ b, ∑ c, if b < a ∧ c < b then f a b c else 0 with hO
  have sw23 : ∀ P : Fin N → Fin N → Fin N → Prop, ∀ [∀ a b c, Decidable (P a b c)],
      (∑ a, ∑ b, ∑ c, if P a b c then f a b c else 0) = ∑ a, ∑ b, ∑ c, if P a c b then f a b c else 0 := by
    intro P _
    refine sum_congr rfl fun a _ => ?_
    rw [sum_comm]
    refine sum_congr rfl fun b _ => sum_congr rfl fun c _ => ?_
    rw [(h a c b).2]
  have sw12 : ∀ P : Fin N → Fin N → Fin N → Prop, ∀ [∀ a b c, Decidable (P a b c)],
      (∑ a, ∑ b, ∑ c, if P a b c then f a b c else 0) = ∑ a, ∑ b, ∑ c, if P b a c then f a b c else 0 := by
    intro P _
    rw [sum_comm]
    refine sum_congr rfl fun a _ => sum_congr rfl fun b _ => sum_congr rfl fun c _ => ?_
    rw [(h b a c).1]
  have e : D3 f = O + (∑ a, ∑ b, ∑ c, if c < a ∧ b < c then f a b c else 0) +
      (∑ a, ∑ b, ∑ c, if a < b ∧ c < a then f a b c else 0) + (∑ a, ∑ b, ∑ c, if c < b ∧ a < c then f a b c else 0) +
      (∑ a, ∑ b, ∑ c, if a < c ∧ b < a then f a b c else 0) + ∑ a, ∑ b, ∑ c, if b < c ∧ a < b then f a b c else 0 := by
    unfold D3
    simp only [hO, ← sum_add_distrib]
    refine sum_congr rfl fun a _ => sum_congr rfl fun b _ => sum_congr rfl fun c _ => ?_
    rcases lt_trichotomy a b with h1 | h1 | h1 <;> rcases lt_trichotomy b c with h2 | h2 | h2 <;>
      rcases lt_trichotomy a c with h3 | h3 | h3 <;>
      first
      | (exfalso; omega)
      | (simp [h1, h2, h3, h1.ne, h1.ne', h2.ne, h2.ne', h3.ne, h3.ne', h1.not_gt, h2.not_gt, h3.not_gt]; done)
      | (rw [if_neg (by omega), if_neg (by omega), if_neg (by omega), if_neg (by omega), if_neg (by omega),
          if_neg (by omega), if_neg (by omega)]; simp)
  have e1 : (∑ a, ∑ b, ∑ c, if c < a ∧ b < c then f a b c else 0) = O := sw23 (fun a b c => c < a ∧ b < c)
  have e2 : (∑ a, ∑ b, ∑ c, if a < b ∧ c < a then f a b c else 0) = O := sw12 (fun a b c => a < b ∧ c < a)
  have e3 : (∑ a, ∑ b, ∑ c, if c < b ∧ a < c then f a b c else 0) = O :=
    (sw12 (fun a b c => c < b ∧ a < c)).trans e1
  have e4 : (∑ a, ∑ b, ∑ c, if a < c ∧ b < a then f a b c else 0) = O :=
    (sw23 (fun a b c => a < c ∧ b < a)).trans e2
  have e5 : (∑ a, ∑ b, ∑ c, if b < c ∧ a < b then f a b c else 0) = O :=
    (sw12 (fun a b c => b < c ∧ a < b)).trans e4
  rw [e, e1, e2, e3, e4, e5]
  ring

theorem range_map_sum (f : Nat → ℝ) : ((List.range N).map f).sum = ∑ k : Fin N, f k := by
  rw [Fin.sum_univ_eq_sum_range]
  rfl

theorem filter_map_sum (p : Nat → Bool) (f : Nat → ℝ) :
    (((List.range N).filter p).map f).sum = ∑ k : Fin N, if p k then f k else 0 := by
  rw [← range_map_sum (N := N) fun k => if p k then f k else 0]
  generalize List.range N = l
  induction l with
  | nil => rfl
  | cons a l ih => by_cases h : p a <;> simp [h, ih]

/-- The inverses of `w_a + w_b - w_c`, those of resonances left out. -/
noncomputable def fracs (R : Nat → Nat → Nat → Prop) (w : Nat → ℝ) (a b c : Fin N) : ℝ :=
  frac (fun i : Fin N => w i) (fun a b c : Fin N => R a b c) a b c

theorem xd_spec (R : Nat → Nat → Nat → Prop) (w : Nat → ℝ) (φ : Nat → Nat → Nat → ℝ) (ψ : Nat → Nat → Nat → Nat → ℝ)
    (k : Fin N) : xd (fun i : Fin N => w i) (fracs R w) (fun i j k : Fin N => φ i j k)
      (fun i j k l : Fin N => ψ i j k l) k = xkkSpec R N w φ ψ k := by
  unfold xd xkkSpec fracs frac
  simp only [← two_mul]
  rw [Fin.sum_univ_eq_sum_range (fun l => φ k k l ^ 2 * (1 / (8 * w l) + 1 / (32 * (2 * w k + w l))
    - fracUnless (R k k l) (2 * w k - w l) / 32))]

theorem xo_spec (R : Nat → Nat → Nat → Prop) (w : Nat → ℝ) (φ : Nat → Nat → Nat → ℝ) (ψ : Nat → Nat → Nat → Nat → ℝ)
    (ζ : Nat → Nat → Nat → ℝ) (B : Nat → ℝ) (k l : Fin N) :
    xo (fun i : Fin N => w i) (fracs R w) (fun i j k : Fin N => φ i j k) (fun i j k l : Fin N => ψ i j k l)
      (fun k l : Fin N => ζ k l) B k l = xklSpec R N w φ ψ ζ B k l := by
  unfold xo xklSpec fracs frac
  rw [Fin.sum_univ_eq_sum_range (fun m => φ k k m * φ l l m / (4 * w m)),
    Fin.sum_univ_eq_sum_range (fun m => φ k l m ^ 2 / 8 * (1 / (w k + w l + w m) + fracUnless (R k m l) (w k + w m - w l)
      - fracUnless (R k l m) (w k + w l - w m) + fracUnless (R l m k) (w l + w m - w k)))]
  congr 2
  refine sum_congr rfl fun m _ => ?_
  rw [show w k + w m - w l = w k - w l + w m by ring, show w l + w m - w k = -w k + w l + w m by ring]

theorem ez_spec (R : Nat → Nat → Nat → Prop) (hR : ResRel fun a b c : Fin N => R a b c) (w : Nat → ℝ)
    (φ : Nat → Nat → Nat → ℝ) (ψ : Nat → Nat → Nat → Nat → ℝ)
    (hφ : Sy3 fun i j k : Fin N => φ i j k) :
    ez (fun i : Fin N => w i) (fracs R w) (fun i j k : Fin N => φ i j k) (fun i j k l : Fin N => ψ i j k l) =
      e0Spec R (List.range N) w φ ψ := by
  have hs : ∀ a b c : Fin N, fracs R w a b c = fracs R w b a c := frac_symm hR
  unfold ez e0Spec
  rw [range_map_sum, range_map_sum, range_map_sum, range_map_sum]
  simp only [filter_map_sum]
  rw [D3_order]
  · congr 1
    · congr 1
      unfold D2
      refine sum_congr rfl fun a _ => sum_congr rfl fun b _ => ?_
      simp only [e0kklSpec, fracs, frac, ← two_mul, Fin.val_inj, decide_eq_true_eq, ne_eq]
    · rw [← mul_assoc, show (1 / 6 : ℝ) * 6 = 1 by norm_num, one_mul]
      refine sum_congr rfl fun a _ => sum_congr rfl fun b _ => ?_
      simp only [decide_eq_true_eq, Fin.val_fin_lt]
      by_cases hb : b < a
      · simp only [hb, true_and, if_true, e0klmSpec, fracs, frac]
        refine sum_congr rfl fun c _ => ?_
        rw [show w a + w c - w b = w a - w b + w c by ring, show w b + w c - w a = -w a + w b + w c by ring]
      · simp [hb]
  · intro a b c
    constructor
    · have e : φ a b c = φ b a c := (hφ a b c).1
      rw [e, hs b a c]
      ring
    · have e : φ a b c = φ a c b := (hφ a b c).2
      rw [e, hs c b a]
      ring

theorem xo_symm {σ : Type} [Fintype σ] {w : σ → ℝ} {fr : σ → σ → σ → ℝ} (hs : ∀ a b c, fr a b c = fr b a c)
    {φ : σ → σ → σ → ℝ} {ψ : σ → σ → σ → σ → ℝ}
    {ζ : σ → σ → Nat → ℝ} {B : Nat → ℝ} (hφ : Sy3 φ) (hψ : Sy4 ψ) (hζ : ∀ a k l, ζ k l a = -ζ l k a) (k l : σ) :
    xo w fr φ ψ ζ B k l = xo w fr φ ψ ζ B l k := by
  unfold xo
  have e1 : ψ k k l l = ψ l l k k := by
    rw [(hψ k k l l).2.1, (hψ k l k l).1, (hψ l k k l).2.2, (hψ l k l k).2.1]
  have e2 : ∀ m, φ k k m * φ l l m / (4 * w m) = φ l l m * φ k k m / (4 * w m) := fun m => by ring
  have e3 : ∀ m, φ k l m ^ 2 / 8 * (1 / (w k + w l + w m) + fr k m l - fr k l m + fr l m k) =
      φ l k m ^ 2 / 8 * (1 / (w l + w k + w m) + fr l m k - fr l k m + fr k m l) := by
    intro m
    rw [(hφ k l m).1, show w k + w l = w l + w k by ring, hs k l m]
    ring
  have e4 : ∀ a, B a * ζ k l a ^ 2 = B a * ζ l k a ^ 2 := fun a => by rw [hζ a k l]; ring
  simp only [e1, e2, e3, e4]
  ring

theorem order_range (f : Nat → Nat → ℝ) :
    (∑ a : Fin N, ∑ b : Fin N, if b < a then f a b else 0) = ∑ k ∈ range N, ∑ l ∈ range k, f k l := by
  rw [← Fin.sum_univ_eq_sum_range (fun k => ∑ l ∈ range k, f k l)]
  refine sum_congr rfl fun a _ => ?_
  have : (∑ b : Fin N, if b < a then f a b else 0) = ∑ b ∈ range N, if b < a then f a b else 0 := by
    rw [← Fin.sum_univ_eq_sum_range (fun b => if b < (a : Nat) then f a b else 0)]
    rfl
  rw [this, ← sum_filter]
  refine sum_congr ?_ fun _ _ => rfl
  ext b
  simp only [mem_filter, mem_range]
  have := a.2
  omega

theorem NoResonance.fin {w : Nat → ℝ} (h : NoResonance N w) : NoRes fun i : Fin N => w i :=
  fun i j k => h i j k i.2 j.2 k.2

theorem level_range (w : Nat → ℝ) (n : Nat → Nat) :
    level w (toInt fun i : Fin N => n i) = ∑ i ∈ range N, w i * ((n i : ℝ) + 1 / 2) := by
  rw [level, ← Fin.sum_univ_eq_sum_range (fun i => w i * ((n i : ℝ) + 1 / 2))]
  refine sum_congr rfl fun i _ => ?_
  simp [toInt]

/-- The second-order term of the cubic potential, that of the resonances left out. -/
noncomputable def secondR (R : Nat → Nat → Nat → Prop) (w : Nat → ℝ) (φ : Nat → Nat → Nat → ℝ) (n : Fin N → ℤ) : ℝ :=
  cub (fun i j k : Fin N => φ i j k) (dia (inv (fun i : Fin N => w i) fun a b c : Fin N => R a b c) n
    (cub (fun i j k : Fin N => φ i j k) (one n))) n

/-- The second-order energy without the resonances in the form of the formulas for the anharmonic constants. -/
theorem vib_valueR {R : Nat → Nat → Nat → Prop} (hR : ResRel fun a b c : Fin N => R a b c)
    {w : Nat → ℝ} {φ : Nat → Nat → Nat → ℝ} {ψ : Nat → Nat → Nat → Nat → ℝ} {ζ : Nat → Nat → Nat → ℝ}
    {B : Nat → ℝ} (h3 : Symm3 N φ) (h4 : Symm4 N ψ) (hz : ∀ a k l, k < N → l < N → ζ k l a = -ζ l k a)
    (hp : ∀ i < N, 0 < w i) (n : Nat → Nat) :
    -secondR R w φ (toInt fun i : Fin N => n i) + expect2 w ψ ζ B (toInt fun i : Fin N => n i) =
      ∑ k ∈ range N, ∑ l ∈ range (k + 1), xSpec R N w φ ψ ζ B k l *
        ((n k : ℝ) + 1 / 2) * ((n l : ℝ) + 1 / 2)
      + e0Spec R (List.range N) w φ ψ
      - 1 / 2 * ∑ k ∈ range N, ∑ l ∈ range k, ∑ a ∈ range 3, B a * ζ k l a ^ 2 := by
  have hφ : Sy3 fun i j k : Fin N => φ i j k := fun i j k => h3 i j k i.2 j.2 k.2
  have hψ : Sy4 fun i j k l : Fin N => ψ i j k l := fun i j k l => h4 i j k l i.2 j.2 k.2 l.2
  have hζ : ∀ a (k l : Fin N), ζ k l a = -ζ l k a := fun a k l => hz a k l k.2 l.2
  have hs : ∀ a b c : Fin N, fracs R w a b c = fracs R w b a c := frac_symm hR
  rw [secondR, expect2, second_form (ζ := fun k l : Fin N => ζ k l) (fr := fracs R w) hφ hψ
    (inv_inv (fun i : Fin N => w i) hR) hs (frac_off hR) (fun i => hp i i.2) hζ,
    ez_spec R hR w φ ψ hφ, D2_order, D2_order]
  · have o1 : (∑ a : Fin N, ∑ b : Fin N, if b < a then xo (fun i : Fin N => w i) (fracs R w)
        (fun i j k : Fin N => φ i j k)
        (fun i j k l : Fin N => ψ i j k l) (fun k l : Fin N => ζ k l) B a b *
        (((toInt (fun i : Fin N => n i) a : ℝ) + 1 / 2) * (toInt (fun i : Fin N => n i) b + 1 / 2)) else 0) =
        ∑ k ∈ range N, ∑ l ∈ range k, xSpec R N w φ ψ ζ B k l *
          ((n k : ℝ) + 1 / 2) * ((n l : ℝ) + 1 / 2) := by
      rw [← order_range]
      refine sum_congr rfl fun a _ => sum_congr rfl fun b _ => ?_
      split
      · rename_i hba
        have hba' : (b : Nat) < a := hba
        rw [xo_spec, xSpec, if_neg (by omega), max_eq_left hba'.le, min_eq_right hba'.le]
        simp only [toInt, Int.cast_natCast]
        ring
      · rfl
    have o2 : (∑ k : Fin N, xd (fun i : Fin N => w i) (fracs R w) (fun i j k : Fin N => φ i j k)
        (fun i j k l : Fin N => ψ i j k l) k * ((toInt (fun i : Fin N => n i) k : ℝ) + 1 / 2) ^ 2) =
        ∑ k ∈ range N, xSpec R N w φ ψ ζ B k k * ((n k : ℝ) + 1 / 2) * ((n k : ℝ) + 1 / 2) := by
      rw [← Fin.sum_univ_eq_sum_range (fun k => xSpec R N w φ ψ ζ B k k * ((n k : ℝ) + 1 / 2)
        * ((n k : ℝ) + 1 / 2))]
      refine sum_congr rfl fun k _ => ?_
      rw [xd_spec, xSpec, if_pos rfl]
      simp only [toInt, Int.cast_natCast]
      ring
    rw [o1, o2, order_range (N := N) fun k l => ∑ a ∈ range 3, B a * ζ k l a ^ 2]
    simp only [sum_range_succ _ (_ : Nat), sum_add_distrib]
    ring
  · intro k l
    refine sum_congr rfl fun a _ => ?_
    rw [hζ a k l]
    ring
  · intro k l
    rw [xo_symm hs hφ hψ hζ k l]
    ring

theorem secondR_false (w : Nat → ℝ) (φ : Nat → Nat → Nat → ℝ) (n : Fin N → ℤ) :
    secondR (fun _ _ _ => False) w φ n = second1 w φ n := by rw [secondR, second1, res_inv]

/-- The second-order energy in the form of the formulas for the anharmonic constants. -/
theorem vib_value {w : Nat → ℝ} {φ : Nat → Nat → Nat → ℝ} {ψ : Nat → Nat → Nat → Nat → ℝ} {ζ : Nat → Nat → Nat → ℝ}
    {B : Nat → ℝ} (h3 : Symm3 N φ) (h4 : Symm4 N ψ) (hz : ∀ a k l, k < N → l < N → ζ k l a = -ζ l k a)
    (hp : ∀ i < N, 0 < w i) (n : Nat → Nat) :
    -second1 w φ (toInt fun i : Fin N => n i) + expect2 w ψ ζ B (toInt fun i : Fin N => n i) =
      ∑ k ∈ range N, ∑ l ∈ range (k + 1), xSpec (fun _ _ _ => False) N w φ ψ ζ B k l *
        ((n k : ℝ) + 1 / 2) * ((n l : ℝ) + 1 / 2)
      + e0Spec (fun _ _ _ => False) (List.range N) w φ ψ
      - 1 / 2 * ∑ k ∈ range N, ∑ l ∈ range k, ∑ a ∈ range 3, B a * ζ k l a ^ 2 := by
  rw [← secondR_false]
  exact vib_valueR resRel_false h3 h4 hz hp n

/-- The energy to second order in the form of the formulas for the anharmonic constants. -/
theorem vib_formula {w : Nat → ℝ} {φ : Nat → Nat → Nat → ℝ} {ψ : Nat → Nat → Nat → Nat → ℝ} {ζ : Nat → Nat → Nat → ℝ}
    {B : Nat → ℝ} (h3 : Symm3 N φ) (h4 : Symm4 N ψ) (hz : ∀ a k l, k < N → l < N → ζ k l a = -ζ l k a)
    (hp : ∀ i < N, 0 < w i) (hw : NoResonance N w) {n : Nat → Nat} {E0 E1 E2 : ℝ}
    (h : VibEnergy w φ ψ ζ B (fun i : Fin N => n i) E0 E1 E2) :
    E0 = ∑ i ∈ range N, w i * ((n i : ℝ) + 1 / 2) ∧ E1 = 0 ∧
    E2 = ∑ k ∈ range N, ∑ l ∈ range (k + 1), xSpec (fun _ _ _ => False) N w φ ψ ζ B k l *
        ((n k : ℝ) + 1 / 2) * ((n l : ℝ) + 1 / 2)
      + e0Spec (fun _ _ _ => False) (List.range N) w φ ψ
      - 1 / 2 * ∑ k ∈ range N, ∑ l ∈ range k, ∑ a ∈ range 3, B a * ζ k l a ^ 2 := by
  obtain ⟨a0, a1, a2⟩ := vib_unique hw.fin h
  refine ⟨?_, a1, a2.trans (vib_value h3 h4 hz hp n)⟩
  rw [a0, level_range]

end Verif.Osc
