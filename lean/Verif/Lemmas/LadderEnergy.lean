import Verif.Lemmas.LadderSum

/-!
# The second-order energy on occupation numbers

Helpers for C102.
-/

namespace Verif.Osc

open Finset

variable {σ : Type} [Fintype σ] [DecidableEq σ]

/-- The cubic potential. -/
noncomputable def cub (φ : σ → σ → σ → ℝ) (f : (σ → ℤ) → ℝ) : (σ → ℤ) → ℝ :=
  (1 / 6 : ℝ) • ∑ i, ∑ j, ∑ k, φ i j k • q i (q j (q k f))

/-- The quartic potential. -/
noncomputable def qua (ψ : σ → σ → σ → σ → ℝ) (f : (σ → ℤ) → ℝ) : (σ → ℤ) → ℝ :=
  (1 / 24 : ℝ) • ∑ i, ∑ j, ∑ k, ∑ l, ψ i j k l • q i (q j (q k (q l f)))

/-- The angular momentum. -/
noncomputable def ang (w : σ → ℝ) (ζ : σ → σ → ℝ) (f : (σ → ℤ) → ℝ) : (σ → ℤ) → ℝ :=
  ∑ k, ∑ l, (ζ k l * Real.sqrt (w l / w k)) • q k (d l f)

theorem cub_at (φ : σ → σ → σ → ℝ) (f : (σ → ℤ) → ℝ) (m : σ → ℤ) :
    cub φ f m = 1 / 6 * ∑ i, ∑ j, ∑ k, φ i j k * q i (q j (q k f)) m := by
  simp only [cub, Pi.smul_apply, Finset.sum_apply, smul_eq_mul]

theorem qua_at (ψ : σ → σ → σ → σ → ℝ) (f : (σ → ℤ) → ℝ) (m : σ → ℤ) :
    qua ψ f m = 1 / 24 * ∑ i, ∑ j, ∑ k, ∑ l, ψ i j k l * q i (q j (q k (q l f))) m := by
  simp only [qua, Pi.smul_apply, Finset.sum_apply, smul_eq_mul]

/-- Symmetric cubic constants. -/
def Sy3 (φ : σ → σ → σ → ℝ) : Prop := ∀ i j k, φ i j k = φ j i k ∧ φ i j k = φ i k j

/-- Symmetric quartic constants. -/
def Sy4 (ψ : σ → σ → σ → σ → ℝ) : Prop :=
  ∀ i j k l, ψ i j k l = ψ j i k l ∧ ψ i j k l = ψ i k j l ∧ ψ i j k l = ψ i j l k

/-- No three frequencies in resonance. -/
def NoRes (w : σ → ℝ) : Prop := ∀ i j k, w i + w j + w k ≠ 0 ∧ w i + w j - w k ≠ 0

theorem NoRes.pos {w : σ → ℝ} (h : NoRes w) (i : σ) : w i ≠ 0 := by
  intro hi
  have := (h i i i).1
  rw [hi] at this
  norm_num at this

/-- `g` inverts the energy differences which the cubic potential bridges; `fr a b c` stands for the inverse of
`w_a + w_b - w_c`. -/
structure Inv (w : σ → ℝ) (fr : σ → σ → σ → ℝ) (g : (σ → ℤ) → ℝ) : Prop where
  odd : ∀ s, g (-s) = -g s
  s1 : ∀ j, g (sl1 0 j 1) = 1 / w j
  s3 : ∀ j, g (sl1 0 j 3) = 1 / (3 * w j)
  t1 : ∀ l j, g (sl2 0 l j 0 1) = 1 / w j
  t2 : ∀ l j, g (sl2 0 l j 2 1) = 1 / (2 * w l + w j)
  t3 : ∀ l j, g (sl2 0 l j 2 (-1)) = fr l l j
  u1 : ∀ l m j, g (sl3 0 l m j 0 0 1) = 1 / w j
  u2 : ∀ a b c, g (sl3 0 a b c 1 1 1) = 1 / (w a + w b + w c)
  u3 : ∀ a b c, g (sl3 0 a b c 1 1 (-1)) = fr a b c
  u4 : ∀ a b c, g (sl3 0 a b c 1 (-1) 1) = fr a c b
  u5 : ∀ a b c, g (sl3 0 a b c (-1) 1 1) = fr b c a

theorem par_dia {n : σ → ℤ} {S : σ → ZMod 2} {f : (σ → ℤ) → ℝ} (g : (σ → ℤ) → ℝ) (h : Par n S f) : Par n S (dia g n f) := by
  intro m hm
  apply h
  intro hc
  apply hm
  rw [dia_apply, hc, zero_mul]

/-- The matrix element of two products of three coordinates. -/
noncomputable def gg (g : (σ → ℤ) → ℝ) (n : σ → ℤ) (a b c x y z : σ) : ℝ :=
  q a (q b (q c (dia g n (q x (q y (q z (one n))))))) n

theorem gg_zero (g : (σ → ℤ) → ℝ) (n : σ → ℤ) (a b c x y z : σ) (h : gg g n a b c x y z ≠ 0) :
    odd x + (odd y + odd z) = odd a + (odd b + odd c) := by
  have hp := par_at (par_q (par_q (par_q (par_dia g (par_q (par_q (par_q (par_one n) z) y) x)) c) b) a) h
  funext v
  have := congrFun hp v
  simp only [Pi.add_apply, Pi.zero_apply] at this ⊢
  revert this
  generalize odd x v = x'
  generalize odd y v = y'
  generalize odd z v = z'
  generalize odd a v = a'
  generalize odd b v = b'
  generalize odd c v = c'
  revert x' y' z' a' b' c'
  decide

/-- The second-order energy of the cubic potential, before simplification. -/
theorem cub_second (g : (σ → ℤ) → ℝ) (n : σ → ℤ) (φ : σ → σ → σ → ℝ) :
    cub φ (dia g n (cub φ (one n))) n =
      1 / 36 * ∑ a, ∑ b, ∑ c, φ a b c * ∑ x, ∑ y, ∑ z, φ x y z * gg g n a b c x y z := by
  rw [cub_at]
  have : ∀ a b c, q a (q b (q c (dia g n (cub φ (one n))))) n =
      1 / 6 * ∑ x, ∑ y, ∑ z, φ x y z * gg g n a b c x y z := by
    intro a b c
    simp only [cub, map_smul, map_sum, Pi.smul_apply, Finset.sum_apply, smul_eq_mul, gg]
  simp only [this]
  rw [show (1 / 36 : ℝ) = 1 / 6 * (1 / 6) by norm_num, mul_assoc]
  congr 1
  simp only [mul_sum]
  refine sum_congr rfl fun a _ => sum_congr rfl fun b _ => sum_congr rfl fun c _ => sum_congr rfl fun x _ =>
    sum_congr rfl fun y _ => sum_congr rfl fun z _ => ?_
  ring

theorem gg_comm1 (g : (σ → ℤ) → ℝ) (n : σ → ℤ) (a b c x y z : σ) : gg g n a b c x y z = gg g n b a c x y z := by
  unfold gg; rw [q_comm a b]
theorem gg_comm2 (g : (σ → ℤ) → ℝ) (n : σ → ℤ) (a b c x y z : σ) : gg g n a b c x y z = gg g n a c b x y z := by
  unfold gg; rw [q_comm b c]
theorem gg_comm3 (g : (σ → ℤ) → ℝ) (n : σ → ℤ) (a b c x y z : σ) : gg g n a b c x y z = gg g n a b c y x z := by
  unfold gg; rw [q_comm x y]
theorem gg_comm4 (g : (σ → ℤ) → ℝ) (n : σ → ℤ) (a b c x y z : σ) : gg g n a b c x y z = gg g n a b c x z y := by
  unfold gg; rw [q_comm y z]

theorem cub_inner3 {φ : σ → σ → σ → ℝ} (hφ : Sy3 φ) (g : (σ → ℤ) → ℝ) (n : σ → ℤ) {a b c : σ} (hab : a ≠ b) (hac : a ≠ c)
    (hbc : b ≠ c) :
    ∑ x, ∑ y, ∑ z, φ x y z * gg g n a b c x y z = 6 * φ a b c * gg g n a b c a b c := by
  rw [sum3_perm (fun x y z => φ x y z * gg g n a b c x y z) hab hac hbc
    fun x y z h => gg_zero g n a b c x y z (right_ne_zero_of_mul h)]
  have f1 : φ a c b = φ a b c := (hφ a c b).2
  have f2 : φ b a c = φ a b c := (hφ b a c).1
  have f3 : φ b c a = φ a b c := (hφ b c a).2.trans f2
  have f4 : φ c a b = φ a b c := (hφ c a b).1.trans f1
  have f5 : φ c b a = φ a b c := (hφ c b a).1.trans f3
  have g1 := gg_comm4 g n a b c a c b
  have g2 := gg_comm3 g n a b c b a c
  have g3 := (gg_comm4 g n a b c b c a).trans g2
  have g4 := (gg_comm3 g n a b c c a b).trans g1
  have g5 := (gg_comm3 g n a b c c b a).trans g3
  rw [f1, f2, f3, f4, f5, g1, g2, g3, g4, g5]
  ring

theorem cub_inner1 {φ : σ → σ → σ → ℝ} (hφ : Sy3 φ) (g : (σ → ℤ) → ℝ) (n : σ → ℤ) (a b c j : σ)
    (h : odd a + (odd b + odd c) = odd j) :
    ∑ x, ∑ y, ∑ z, φ x y z * gg g n a b c x y z =
      φ j j j * gg g n a b c j j j + 3 * ∑ l, if l ≠ j then φ l l j * gg g n a b c l l j else 0 := by
  rw [sum3_pair (fun x y z => φ x y z * gg g n a b c x y z) j
    fun x y z h' => (gg_zero g n a b c x y z (right_ne_zero_of_mul h')).trans h, mul_sum]
  congr 1
  refine sum_congr rfl fun l _ => ?_
  split
  · rw [← (hφ l l j).2, (hφ j l l).1, ← (hφ l l j).2, gg_comm4 g n a b c l j l, gg_comm3 g n a b c j l l,
      gg_comm4 g n a b c l j l]
    ring
  · ring

/-- The energy expression. -/
theorem cub_value {φ : σ → σ → σ → ℝ} (hφ : Sy3 φ) {w : σ → ℝ} {fr : σ → σ → σ → ℝ} {g : (σ → ℤ) → ℝ} (hg : Inv w fr g) (hj : ∀ j, w j ≠ 0) (n : σ → ℤ) :
    cub φ (dia g n (cub φ (one n))) n = 1 / 36 * (
      ∑ j, φ j j j ^ 2 * ((30 * (n j : ℝ) ^ 2 + 30 * n j + 11) / (8 * w j))
      + D2 (fun l j => 6 * φ j j j * φ l l j * (3 / 2 * ((n l : ℝ) + 1 / 2) * (n j + 1 / 2) / w j)
        + 9 * φ l l j ^ 2 * (((n l : ℝ) + 1 / 2) ^ 2 / (2 * w j) +
      ((((n l : ℝ) + 1) * (n l + 2) * (n j + 1) - n l * (n l - 1) * n j) / (2 * w l + w j) +
       (((n l : ℝ) + 1) * (n l + 2) * n j - n l * (n l - 1) * (n j + 1)) * fr l l j) / 8))
      + D3 (fun l m j => 9 * φ l l j * φ m m j * (((n l : ℝ) + 1 / 2) * (n m + 1 / 2) / (2 * w j))
        + 6 * φ l m j ^ 2 * (((((n l : ℝ) + 1) * (n m + 1) * (n j + 1) - n l * n m * n j) / (w l + w m + w j) +
       ((n l : ℝ) * (n m + 1) * (n j + 1) - (n l + 1) * n m * n j) * fr m j l +
       (((n l : ℝ) + 1) * n m * (n j + 1) - n l * (n m + 1) * n j) * fr l j m +
       (((n l : ℝ) + 1) * (n m + 1) * n j - n l * n m * (n j + 1)) * fr l m j) / 8))) := by
  rw [cub_second, sum3_sort]
  congr 1
  have two : ∀ l : σ, odd l + odd l = 0 := by
    intro l; funext v
    simp only [Pi.add_apply, Pi.zero_apply]
    generalize odd l v = x
    revert x; decide
  have o1 : ∀ l j : σ, odd l + (odd l + odd j) = odd j := by
    intro l j; rw [← add_assoc, two, zero_add]
  have o2 : ∀ l j : σ, odd l + (odd j + odd l) = odd j := by
    intro l j; rw [add_comm (odd j), o1]
  have o3 : ∀ l j : σ, odd j + (odd l + odd l) = odd j := by
    intro l j; rw [two, add_zero]
  -- one mode
  have c1 : ∀ j, ∑ x, ∑ y, ∑ z, φ x y z * gg g n j j j x y z =
      φ j j j * ((30 * (n j : ℝ) ^ 2 + 30 * n j + 11) / (8 * w j)) +
      3 * ∑ l, if l ≠ j then φ l l j * (3 / 2 * ((n l : ℝ) + 1 / 2) * (n j + 1 / 2) / w j) else 0 := by
    intro j
    rw [cub_inner1 hφ g n j j j j (o1 j j)]
    congr 1
    · rw [gg, G_jjj n hg.odd j, hg.s1, hg.s3]
      have := hj j
      field_simp
      ring
    · congr 1
      refine sum_congr rfl fun l _ => ?_
      split
      · rename_i hlj; rw [gg, G_jjj_llj n hg.odd hlj, hg.t1]; ring
      · rfl
  have c2 : ∀ l j, l ≠ j → ∑ x, ∑ y, ∑ z, φ x y z * gg g n l l j x y z =
      φ j j j * (3 / 2 * ((n l : ℝ) + 1 / 2) * (n j + 1 / 2) / w j) +
      3 * φ l l j * (((n l : ℝ) + 1 / 2) ^ 2 / (2 * w j) +
      ((((n l : ℝ) + 1) * (n l + 2) * (n j + 1) - n l * (n l - 1) * n j) / (2 * w l + w j) +
       (((n l : ℝ) + 1) * (n l + 2) * n j - n l * (n l - 1) * (n j + 1)) * fr l l j) / 8) +
      3 * ∑ m, if m ≠ l ∧ m ≠ j then φ m m j * (((n l : ℝ) + 1 / 2) * (n m + 1 / 2) / (2 * w j)) else 0 := by
    intro l j hlj
    have hs : (∑ m, if m ≠ l then if m ≠ j then φ m m j * gg g n l l j m m j else 0 else 0) =
        ∑ m, if m ≠ l ∧ m ≠ j then φ m m j * (((n l : ℝ) + 1 / 2) * (n m + 1 / 2) / (2 * w j)) else 0 := by
      refine sum_congr rfl fun m _ => ?_
      by_cases h1 : m = l
      · simp [h1]
      · by_cases h2 : m = j
        · simp [h2]
        · simp only [ne_eq, h1, h2, not_false_eq_true, if_true, and_self]
          rw [gg, G_llj_mmj n hg.odd (Ne.symm h1) hlj h2, hg.u1]; ring
    rw [cub_inner1 hφ g n l l j j (o1 l j), sum_off _ l, if_pos hlj, hs, gg, G_llj_jjj n hg.odd hlj, gg,
      G_llj n hg.odd hlj, hg.t1, hg.t2, hg.t3]
    ring
  have c3 : ∀ a b c, a ≠ b → a ≠ c → b ≠ c → ∑ x, ∑ y, ∑ z, φ x y z * gg g n a b c x y z = 6 * φ a b c *
      (((((n a : ℝ) + 1) * (n b + 1) * (n c + 1) - n a * n b * n c) / (w a + w b + w c) +
       ((n a : ℝ) * (n b + 1) * (n c + 1) - (n a + 1) * n b * n c) * fr b c a +
       (((n a : ℝ) + 1) * n b * (n c + 1) - n a * (n b + 1) * n c) * fr a c b +
       (((n a : ℝ) + 1) * (n b + 1) * n c - n a * n b * (n c + 1)) * fr a b c) / 8) := by
    intro a b c hab hac hbc
    rw [cub_inner3 hφ g n hab hac hbc, gg, G_abc n hg.odd hab hac hbc, hg.u2, hg.u3, hg.u4, hg.u5]
    ring
  have d2 : D2 (fun l j => (φ l l j * ∑ x, ∑ y, ∑ z, φ x y z * gg g n l l j x y z) +
      (φ l j l * ∑ x, ∑ y, ∑ z, φ x y z * gg g n l j l x y z) +
      (φ j l l * ∑ x, ∑ y, ∑ z, φ x y z * gg g n j l l x y z)) =
      D2 fun l j => 3 * φ l l j * ∑ x, ∑ y, ∑ z, φ x y z * gg g n l l j x y z := by
    refine D2_congr fun l j _ => ?_
    have e1 : ∀ x y z, gg g n l j l x y z = gg g n l l j x y z := fun x y z => gg_comm2 g n l j l x y z
    have e2 : ∀ x y z, gg g n j l l x y z = gg g n l l j x y z := fun x y z => (gg_comm1 g n j l l x y z).trans (e1 x y z)
    simp only [e1, e2]
    rw [← (hφ l l j).2, (hφ j l l).1, ← (hφ l l j).2]
    ring
  rw [d2]
  have d3 : D3 (fun a b c => φ a b c * ∑ x, ∑ y, ∑ z, φ x y z * gg g n a b c x y z) = _ :=
    D3_congr fun a b c hab hac hbc => by rw [c3 a b c hab hac hbc]
  have d2' : D2 (fun l j => 3 * φ l l j * ∑ x, ∑ y, ∑ z, φ x y z * gg g n l l j x y z) = _ :=
    D2_congr fun l j hlj => by rw [c2 l j hlj]
  rw [d3, d2']
  have s1 : ∑ j, φ j j j * ∑ x, ∑ y, ∑ z, φ x y z * gg g n j j j x y z =
      ∑ j, φ j j j ^ 2 * ((30 * (n j : ℝ) ^ 2 + 30 * n j + 11) / (8 * w j)) +
      D2 fun l j => 3 * φ j j j * φ l l j * (3 / 2 * ((n l : ℝ) + 1 / 2) * (n j + 1 / 2) / w j) := by
    rw [D2_swap]
    unfold D2
    rw [← sum_add_distrib]
    refine sum_congr rfl fun j _ => ?_
    rw [c1, mul_add, mul_sum, mul_sum]
    congr 1
    · ring
    · refine sum_congr rfl fun l _ => ?_
      simp only [ne_comm (a := j)]
      split
      · ring
      · ring
  have s2 : ∀ f : σ → σ → σ → ℝ, D2 (fun l j => ∑ m, if m ≠ l ∧ m ≠ j then f l m j else 0) = D3 f := by
    intro f
    rw [D2_sum]
    have : D2 (fun a b : σ => (if a ≠ a ∧ a ≠ b then f a a b else 0) + if b ≠ a ∧ b ≠ b then f a b b else 0) = 0 := by
      unfold D2; simp
    rw [this, zero_add]
    unfold D3
    refine sum_congr rfl fun a _ => ?_
    rw [sum_comm]
    refine sum_congr rfl fun b _ => sum_congr rfl fun c _ => ?_
    by_cases h1 : a = b <;> by_cases h2 : a = c <;> by_cases h3 : b = c <;>
      simp [h1, h2, h3, ne_comm, eq_comm]
  rw [s1]
  have s3 : D2 (fun l j => 3 * φ l l j * (φ j j j * (3 / 2 * ((n l : ℝ) + 1 / 2) * (n j + 1 / 2) / w j) +
      3 * φ l l j * (((n l : ℝ) + 1 / 2) ^ 2 / (2 * w j) +
      ((((n l : ℝ) + 1) * (n l + 2) * (n j + 1) - n l * (n l - 1) * n j) / (2 * w l + w j) +
       (((n l : ℝ) + 1) * (n l + 2) * n j - n l * (n l - 1) * (n j + 1)) * fr l l j) / 8) +
      3 * ∑ m, if m ≠ l ∧ m ≠ j then φ m m j * (((n l : ℝ) + 1 / 2) * (n m + 1 / 2) / (2 * w j)) else 0)) =
      D2 (fun l j => 3 * φ j j j * φ l l j * (3 / 2 * ((n l : ℝ) + 1 / 2) * (n j + 1 / 2) / w j)
        + 9 * φ l l j ^ 2 * (((n l : ℝ) + 1 / 2) ^ 2 / (2 * w j) +
      ((((n l : ℝ) + 1) * (n l + 2) * (n j + 1) - n l * (n l - 1) * n j) / (2 * w l + w j) +
       (((n l : ℝ) + 1) * (n l + 2) * n j - n l * (n l - 1) * (n j + 1)) * fr l l j) / 8)) +
      D3 fun l m j => 9 * φ l l j * φ m m j * (((n l : ℝ) + 1 / 2) * (n m + 1 / 2) / (2 * w j)) := by
    rw [← s2, ← D2_add]
    refine D2_congr fun l j _ => ?_
    rw [mul_add, mul_sum, mul_sum]
    congr 1
    · ring
    · refine sum_congr rfl fun m _ => ?_
      split
      · ring
      · ring
  rw [s3]
  have s4 := D2_add (fun l j => 3 * φ j j j * φ l l j * (3 / 2 * ((n l : ℝ) + 1 / 2) * (n j + 1 / 2) / w j))
    (fun l j => 3 * φ j j j * φ l l j * (3 / 2 * ((n l : ℝ) + 1 / 2) * (n j + 1 / 2) / w j)
        + 9 * φ l l j ^ 2 * (((n l : ℝ) + 1 / 2) ^ 2 / (2 * w j) +
      ((((n l : ℝ) + 1) * (n l + 2) * (n j + 1) - n l * (n l - 1) * n j) / (2 * w l + w j) +
       (((n l : ℝ) + 1) * (n l + 2) * n j - n l * (n l - 1) * (n j + 1)) * fr l l j) / 8))
  rw [add_assoc, add_assoc, add_assoc, ← add_assoc (D2 _), ← s4, ← D3_add]
  rw [← add_assoc]
  congr 1
  · congr 1
    exact D2_congr fun l j _ => by ring
  · exact D3_congr fun l j _ _ _ _ => by ring

/-- The expectation value of the quartic potential. -/
theorem qua_value {ψ : σ → σ → σ → σ → ℝ} (hψ : Sy4 ψ) (n : σ → ℤ) :
    qua ψ (one n) n = ∑ i, ψ i i i i / 24 * (3 / 2 * ((n i : ℝ) + 1 / 2) ^ 2 + 3 / 8) +
      D2 fun i j => ψ i i j j / 8 * (((n i : ℝ) + 1 / 2) * (n j + 1 / 2)) := by
  rw [qua_at, sum4_pair (fun i j k l => ψ i j k l * q i (q j (q k (q l (one n)))) n)]
  · rw [mul_add, mul_sum, ← D2_smul]
    congr 1
    · exact sum_congr rfl fun i _ => by rw [Q_iiii]; ring
    · refine D2_congr fun i j hij => ?_
      have e1 : q i (q j (q i (q j (one n)))) n = q i (q i (q j (q j (one n)))) n := by rw [q_comm j i]
      have e2 : q i (q j (q j (q i (one n)))) n = q i (q i (q j (q j (one n)))) n := by
        rw [q_comm j i (one n), q_comm j i (q j (one n))]
      rw [e1, e2, Q_iijj n hij, ← (hψ i i j j).2.1, (hψ i j j i).2.2, ← (hψ i i j j).2.1]
      ring
  · intro x y z t h
    have := par_at (par_q (par_q (par_q (par_q (par_one n) t) z) y) x) (right_ne_zero_of_mul h)
    rwa [add_zero] at this

/-- The expectation value of the squared angular momentum. -/
theorem ang_value {w : σ → ℝ} (hw : ∀ i, 0 < w i) {ζ : σ → σ → ℝ} (hζ : ∀ k l, ζ k l = -ζ l k) (n : σ → ℤ) :
    ang w ζ (ang w ζ (one n)) n = -D2 fun k l => ζ k l ^ 2 *
      (w l / w k * (((n k : ℝ) + 1 / 2) * (n l + 1 / 2)) - 1 / 4) := by
  have h0 : ∀ k, ζ k k = 0 := fun k => by have := hζ k k; linarith
  have : ang w ζ (ang w ζ (one n)) n = ∑ k, ∑ l, ∑ k', ∑ l',
      (ζ k l * Real.sqrt (w l / w k)) * (ζ k' l' * Real.sqrt (w l' / w k')) * q k (d l (q k' (d l' (one n)))) n := by
    simp only [ang, map_smul, map_sum, Pi.smul_apply, Finset.sum_apply, smul_eq_mul, mul_sum, mul_assoc]
  rw [this, sum4_pair (fun k l k' l' => (ζ k l * Real.sqrt (w l / w k)) * (ζ k' l' * Real.sqrt (w l' / w k')) *
    q k (d l (q k' (d l' (one n)))) n)]
  · simp only [h0, zero_mul, sum_const_zero, zero_add]
    rw [← neg_one_mul (D2 _), ← D2_smul]
    refine D2_congr fun k l hkl => ?_
    rw [D_klkl n hkl, D_kllk n hkl, hζ l k]
    have e1 : Real.sqrt (w l / w k) * Real.sqrt (w l / w k) = w l / w k :=
      Real.mul_self_sqrt (div_pos (hw l) (hw k)).le
    have e2 : Real.sqrt (w l / w k) * Real.sqrt (w k / w l) = 1 := by
      rw [← Real.sqrt_mul (div_pos (hw l) (hw k)).le, div_mul_div_comm, mul_comm (w l),
        div_self (mul_pos (hw k) (hw l)).ne', Real.sqrt_one]
    linear_combination (-(ζ k l ^ 2 * (((n k : ℝ) + 1 / 2) * (n l + 1 / 2)))) * e1 + ζ k l ^ 2 / 4 * e2
  · intro x y z t h
    have := par_at (par_q (par_d (par_q (par_d (par_one n) t) z) y) x) (right_ne_zero_of_mul h)
    rwa [add_zero] at this

end Verif.Osc
