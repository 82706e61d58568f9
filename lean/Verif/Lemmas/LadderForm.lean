import Verif.Lemmas.LadderEnergy

/-!
# The second-order energy as a quadratic form

Helpers for C102.
-/

namespace Verif.Osc

open Finset

variable {σ : Type} [Fintype σ] [DecidableEq σ]

/-- `x_kk`. -/
noncomputable def xd (w : σ → ℝ) (fr : σ → σ → σ → ℝ) (φ : σ → σ → σ → ℝ) (ψ : σ → σ → σ → σ → ℝ) (k : σ) : ℝ :=
  ψ k k k k / 16 - ∑ l, φ k k l ^ 2 * (1 / (8 * w l) + 1 / (32 * (2 * w k + w l)) - fr k k l / 32)

/-- `x_kl`. -/
noncomputable def xo (w : σ → ℝ) (fr : σ → σ → σ → ℝ) (φ : σ → σ → σ → ℝ) (ψ : σ → σ → σ → σ → ℝ) (ζ : σ → σ → Nat → ℝ) (B : Nat → ℝ)
    (k l : σ) : ℝ :=
  ψ k k l l / 4 - ∑ m, φ k k m * φ l l m / (4 * w m)
    - ∑ m, φ k l m ^ 2 / 8 * (1 / (w k + w l + w m) + fr k m l - fr k l m
        + fr l m k)
    + (w k / w l + w l / w k) * ∑ a ∈ range 3, B a * ζ k l a ^ 2

/-- The zero-point constant. -/
noncomputable def ez (w : σ → ℝ) (fr : σ → σ → σ → ℝ) (φ : σ → σ → σ → ℝ) (ψ : σ → σ → σ → σ → ℝ) : ℝ :=
  ∑ k, ψ k k k k / 64 - 7 / 576 * ∑ k, φ k k k ^ 2 / w k
    + D2 (fun a b => 3 * φ a a b ^ 2 / 128 * (fr a a b - 1 / (2 * w a + w b)))
    + 1 / 6 * D3 fun a b c => -(φ a b c ^ 2 / 32) * (1 / (w a + w b + w c) - fr a c b
      - fr a b c - fr b c a)

theorem cub_form {φ : σ → σ → σ → ℝ} (hφ : Sy3 φ) {w : σ → ℝ} {fr : σ → σ → σ → ℝ} {g : (σ → ℤ) → ℝ} (hg : Inv w fr g)
    (hs : ∀ a b c, fr a b c = fr b a c) (ho : ∀ k l, fr k l k = 1 / w l) (hw : ∀ j, w j ≠ 0) (n : σ → ℤ) :
    -cub φ (dia g n (cub φ (one n))) n =
      ∑ k, (-∑ l, φ k k l ^ 2 * (1 / (8 * w l) + 1 / (32 * (2 * w k + w l)) - fr k k l / 32)) *
        ((n k : ℝ) + 1 / 2) ^ 2
      + 1 / 2 * D2 (fun k l => (-∑ m, φ k k m * φ l l m / (4 * w m)
          - ∑ m, φ k l m ^ 2 / 8 * (1 / (w k + w l + w m) + fr k m l - fr k l m
        + fr l m k)) * (((n k : ℝ) + 1 / 2) * (n l + 1 / 2)))
      + (-(7 / 576) * ∑ k, φ k k k ^ 2 / w k
    + D2 (fun a b => 3 * φ a a b ^ 2 / 128 * (fr a a b - 1 / (2 * w a + w b)))
    + 1 / 6 * D3 fun a b c => -(φ a b c ^ 2 / 32) * (1 / (w a + w b + w c) - fr a c b
      - fr a b c - fr b c a)) := by
  rw [cub_value hφ hg hw]
  -- the target, sorted
  have t1 : ∑ k, (-∑ l, φ k k l ^ 2 * (1 / (8 * w l) + 1 / (32 * (2 * w k + w l)) - fr k k l / 32)) *
        ((n k : ℝ) + 1 / 2) ^ 2 =
      ∑ k, -(φ k k k ^ 2 * (1 / (8 * w k) + 1 / (32 * (2 * w k + w k)) - fr k k k / 32)) *
        ((n k : ℝ) + 1 / 2) ^ 2 +
      D2 fun k l => -(φ k k l ^ 2 * (1 / (8 * w l) + 1 / (32 * (2 * w k + w l)) - fr k k l / 32)) *
        ((n k : ℝ) + 1 / 2) ^ 2 := by
    refine Eq.trans ?_ (sum2_sort fun k l => -(φ k k l ^ 2 * (1 / (8 * w l) + 1 / (32 * (2 * w k + w l))
      - fr k k l / 32)) * ((n k : ℝ) + 1 / 2) ^ 2)
    refine sum_congr rfl fun k _ => ?_
    rw [← sum_neg_distrib, sum_mul]
  have t2 : D2 (fun k l => (-∑ m, φ k k m * φ l l m / (4 * w m)
          - ∑ m, φ k l m ^ 2 / 8 * (1 / (w k + w l + w m) + fr k m l - fr k l m
        + fr l m k)) * (((n k : ℝ) + 1 / 2) * (n l + 1 / 2))) =
      D2 fun k l => ∑ m, (-(φ k k m * φ l l m / (4 * w m))
          - φ k l m ^ 2 / 8 * (1 / (w k + w l + w m) + fr k m l - fr k l m
        + fr l m k)) * (((n k : ℝ) + 1 / 2) * (n l + 1 / 2)) := by
    refine D2_congr fun k l _ => ?_
    rw [← sum_neg_distrib, ← sum_sub_distrib, sum_mul]
  rw [t1, t2, D2_sum]
  have p1 : -(1 / 36 * ∑ j, φ j j j ^ 2 * ((30 * (n j : ℝ) ^ 2 + 30 * n j + 11) / (8 * w j))) =
      ∑ k, -(φ k k k ^ 2 * (1 / (8 * w k) + 1 / (32 * (2 * w k + w k)) - fr k k k / 32)) *
        ((n k : ℝ) + 1 / 2) ^ 2 + -(7 / 576) * ∑ k, φ k k k ^ 2 / w k := by
    rw [mul_sum, mul_sum, ← sum_neg_distrib, ← sum_add_distrib]
    refine sum_congr rfl fun k _ => ?_
    have := hw k
    rw [show 2 * w k + w k = 3 * w k by ring, ho]
    field_simp
    ring
  have p2 := D2_eq (f := fun l j => -(1 / 36) * (6 * φ j j j * φ l l j * (3 / 2 * ((n l : ℝ) + 1 / 2) * (n j + 1 / 2) / w j)
        + 9 * φ l l j ^ 2 * (((n l : ℝ) + 1 / 2) ^ 2 / (2 * w j) +
      ((((n l : ℝ) + 1) * (n l + 2) * (n j + 1) - n l * (n l - 1) * n j) / (2 * w l + w j) +
       (((n l : ℝ) + 1) * (n l + 2) * n j - n l * (n l - 1) * (n j + 1)) * fr l l j) / 8)))
    (g := fun k l => (-(φ k k l ^ 2 * (1 / (8 * w l) + 1 / (32 * (2 * w k + w l)) - fr k k l / 32)) *
        ((n k : ℝ) + 1 / 2) ^ 2) + 1 / 2 * ((-(φ k k k * φ l l k / (4 * w k))
          - φ k l k ^ 2 / 8 * (1 / (w k + w l + w k) + fr k k l - fr k l k
        + fr l k k)) * (((n k : ℝ) + 1 / 2) * (n l + 1 / 2)) + (-(φ k k l * φ l l l / (4 * w l))
          - φ k l l ^ 2 / 8 * (1 / (w k + w l + w l) + fr k l l - fr k l l
        + fr l l k)) * (((n k : ℝ) + 1 / 2) * (n l + 1 / 2))) +
        3 * φ k k l ^ 2 / 128 * (fr k k l - 1 / (2 * w k + w l))) (by
      intro a b hab
      have e1 : φ a b a = φ a a b := (hφ a b a).2
      have e2 : φ b a b = φ b b a := (hφ b a b).2
      have e3 : φ a b b = φ b b a := (hφ a b b).1.trans e2
      have e4 : φ b a a = φ a a b := (hφ b a a).1.trans e1
      have s1 : ∀ x y : ℝ, x + y + x = 2 * x + y := fun x y => by ring
      have s5 : ∀ x y : ℝ, x + y + y = 2 * y + x := fun x y => by ring
      rw [e1, e2, e3, e4, s1, s5, s1, s5, hs b a a, hs a b b, ho, ho]
      generalize 2 * w a + w b = p1
      generalize 2 * w b + w a = p3
      ring)
  have p3 := D3_eq (f := fun l m j => -(1 / 36) * (9 * φ l l j * φ m m j * (((n l : ℝ) + 1 / 2) * (n m + 1 / 2) / (2 * w j))
        + 6 * φ l m j ^ 2 * (((((n l : ℝ) + 1) * (n m + 1) * (n j + 1) - n l * n m * n j) / (w l + w m + w j) +
       ((n l : ℝ) * (n m + 1) * (n j + 1) - (n l + 1) * n m * n j) * fr m j l +
       (((n l : ℝ) + 1) * n m * (n j + 1) - n l * (n m + 1) * n j) * fr l j m +
       (((n l : ℝ) + 1) * (n m + 1) * n j - n l * n m * (n j + 1)) * fr l m j) / 8)))
    (g := fun k l m => 1 / 2 * ((-(φ k k m * φ l l m / (4 * w m))
          - φ k l m ^ 2 / 8 * (1 / (w k + w l + w m) + fr k m l - fr k l m
        + fr l m k)) * (((n k : ℝ) + 1 / 2) * (n l + 1 / 2))) +
        1 / 6 * (-(φ k l m ^ 2 / 32) * (1 / (w k + w l + w m) - fr k m l
      - fr k l m - fr l m k))) (by
      intro a b c hab hac hbc
      rw [show φ b c a = φ a b c from (hφ b c a).2.trans (hφ b a c).1,
        show φ c a b = φ a b c from (hφ c a b).1.trans (hφ a c b).2, hs b a c, hs c a b, hs c b a]
      ring)
  rw [D2_add (fun k l => -(φ k k l ^ 2 * (1 / (8 * w l) + 1 / (32 * (2 * w k + w l)) - fr k k l / 32)) *
        ((n k : ℝ) + 1 / 2) ^ 2 + 1 / 2 * _), D2_add, D2_smul] at p2
  rw [D3_add, D3_smul, D3_smul] at p3
  rw [D2_smul] at p2
  rw [D3_smul] at p3
  linarith

/-- The second-order energy, complete. -/
theorem second_form {φ : σ → σ → σ → ℝ} (hφ : Sy3 φ) {ψ : σ → σ → σ → σ → ℝ} (hψ : Sy4 ψ) {w : σ → ℝ} {fr : σ → σ → σ → ℝ}
    {g : (σ → ℤ) → ℝ} (hg : Inv w fr g) (hs : ∀ a b c, fr a b c = fr b a c) (ho : ∀ k l, fr k l k = 1 / w l)
    (hp : ∀ i, 0 < w i) {ζ : σ → σ → Nat → ℝ} (hζ : ∀ a k l, ζ k l a = -ζ l k a) (B : Nat → ℝ) (n : σ → ℤ) :
    -cub φ (dia g n (cub φ (one n))) n + (qua ψ (one n) n
      - ∑ a ∈ range 3, B a * ang w (fun k l => ζ k l a) (ang w (fun k l => ζ k l a) (one n)) n) =
    ∑ k, xd w fr φ ψ k * ((n k : ℝ) + 1 / 2) ^ 2
      + 1 / 2 * D2 (fun k l => xo w fr φ ψ ζ B k l * (((n k : ℝ) + 1 / 2) * (n l + 1 / 2)))
      + ez w fr φ ψ - 1 / 4 * D2 fun k l => ∑ a ∈ range 3, B a * ζ k l a ^ 2 := by
  rw [cub_form hφ hg hs ho (fun j => (hp j).ne'), qua_value hψ]
  have ha : ∑ a ∈ range 3, B a * ang w (fun k l => ζ k l a) (ang w (fun k l => ζ k l a) (one n)) n =
      -(1 / 2 * D2 (fun k l => ((w k / w l + w l / w k) * ∑ a ∈ range 3, B a * ζ k l a ^ 2) *
        (((n k : ℝ) + 1 / 2) * (n l + 1 / 2)))) + 1 / 4 * D2 fun k l => ∑ a ∈ range 3, B a * ζ k l a ^ 2 := by
    have e : ∀ a, B a * ang w (fun k l => ζ k l a) (ang w (fun k l => ζ k l a) (one n)) n =
        D2 fun k l => -(B a * (ζ k l a ^ 2 * (w l / w k * (((n k : ℝ) + 1 / 2) * (n l + 1 / 2)) - 1 / 4))) := by
      intro a
      rw [ang_value hp (hζ a), ← neg_one_mul (D2 _), ← mul_assoc, ← D2_smul]
      exact D2_congr fun k l _ => by ring
    simp only [e, sum_range_succ, sum_range_zero, zero_add]
    rw [← D2_add, ← D2_add, ← D2_smul, ← D2_smul, ← neg_one_mul (D2 _), ← D2_smul, ← D2_add]
    refine D2_eq fun k l _ => ?_
    rw [hζ 0 l k, hζ 1 l k, hζ 2 l k]
    ring
  have hx : ∑ k, xd w fr φ ψ k * ((n k : ℝ) + 1 / 2) ^ 2 = ∑ k, (-∑ l, φ k k l ^ 2 * (1 / (8 * w l)
      + 1 / (32 * (2 * w k + w l)) - fr k k l / 32)) * ((n k : ℝ) + 1 / 2) ^ 2 +
      ∑ k, ψ k k k k / 16 * ((n k : ℝ) + 1 / 2) ^ 2 := by
    rw [← sum_add_distrib]
    exact sum_congr rfl fun k _ => by unfold xd; ring
  have hq : ∑ i, ψ i i i i / 24 * (3 / 2 * ((n i : ℝ) + 1 / 2) ^ 2 + 3 / 8) =
      ∑ k, ψ k k k k / 16 * ((n k : ℝ) + 1 / 2) ^ 2 + ∑ k, ψ k k k k / 64 := by
    rw [← sum_add_distrib]
    exact sum_congr rfl fun k _ => by ring
  have ho : D2 (fun k l => xo w fr φ ψ ζ B k l * (((n k : ℝ) + 1 / 2) * (n l + 1 / 2))) =
      D2 (fun k l => (-∑ m, φ k k m * φ l l m / (4 * w m)
          - ∑ m, φ k l m ^ 2 / 8 * (1 / (w k + w l + w m) + fr k m l - fr k l m
        + fr l m k)) * (((n k : ℝ) + 1 / 2) * (n l + 1 / 2))) +
      2 * D2 (fun i j => ψ i i j j / 8 * (((n i : ℝ) + 1 / 2) * (n j + 1 / 2))) +
      D2 (fun k l => ((w k / w l + w l / w k) * ∑ a ∈ range 3, B a * ζ k l a ^ 2) *
        (((n k : ℝ) + 1 / 2) * (n l + 1 / 2))) := by
    rw [← D2_smul, ← D2_add, ← D2_add]
    exact D2_congr fun k l _ => by unfold xo; ring
  rw [ha, hx, hq, ho]
  unfold ez
  ring

end Verif.Osc
