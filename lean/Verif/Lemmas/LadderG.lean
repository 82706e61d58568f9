import Verif.Lemmas.Ladder

/-!
# The second-order matrix elements

Helpers for C102.
-/

namespace Verif.Osc

variable {σ : Type} [Fintype σ] [DecidableEq σ] (n : σ → ℤ) (w : σ → ℝ)

theorem rt3 : rt * (rt * (rt * (rt * (rt * rt)))) = 1 / 8 := by
  have := rt_sq
  calc rt * (rt * (rt * (rt * (rt * rt)))) = (rt * rt) * (rt * rt) * (rt * rt) := by ring
    _ = 1 / 8 := by rw [this]; norm_num

theorem rt6 : rt ^ 6 = 1 / 8 := by rw [← rt3]; ring
theorem rt4 : rt ^ 4 = 1 / 4 := by
  have := rt_sq
  calc rt ^ 4 = (rt * rt) * (rt * rt) := by ring
    _ = 1 / 4 := by rw [this]; norm_num
theorem rt2 : rt ^ 2 = 1 / 2 := by rw [← rt_sq]; ring

theorem at_sl1 (F : (σ → ℤ) → ℝ) (a : σ) : F n = F (sl1 n a 0) := by rw [sl1_zero]
theorem at_sl2 (F : (σ → ℤ) → ℝ) (a b : σ) : F n = F (sl2 n a b 0 0) := by rw [sl2_zero]
theorem at_sl3 (F : (σ → ℤ) → ℝ) (a b c : σ) : F n = F (sl3 n a b c 0 0 0) := by rw [sl3_zero]

/-- Multiplication by a function of the difference to `n`; the resolvent is the case of the inverse energy difference. -/
noncomputable def dia (g : (σ → ℤ) → ℝ) (n : σ → ℤ) : ((σ → ℤ) → ℝ) →ₗ[ℝ] ((σ → ℤ) → ℝ) where
  toFun f m := f m * g (m - n)
  map_add' f g := by funext m; simp only [Pi.add_apply]; ring
  map_smul' c f := by funext m; simp only [Pi.smul_apply, smul_eq_mul, RingHom.id_apply]; ring

theorem dia_apply (g : (σ → ℤ) → ℝ) (n : σ → ℤ) (f : (σ → ℤ) → ℝ) (m : σ → ℤ) : dia g n f m = f m * g (m - n) := rfl

theorem dia_sl1 (g : (σ → ℤ) → ℝ) (f : (σ → ℤ) → ℝ) (a : σ) (x : ℤ) :
    dia g n f (sl1 n a x) = f (sl1 n a x) * g (sl1 0 a x) := by
  rw [dia_apply]; congr 2; simp only [sl1]; abel

theorem dia_sl2 (g : (σ → ℤ) → ℝ) (f : (σ → ℤ) → ℝ) (a b : σ) (x y : ℤ) :
    dia g n f (sl2 n a b x y) = f (sl2 n a b x y) * g (sl2 0 a b x y) := by
  rw [dia_apply]; congr 2; simp only [sl2]; abel

theorem dia_sl3 (g : (σ → ℤ) → ℝ) (f : (σ → ℤ) → ℝ) (a b c : σ) (x y z : ℤ) :
    dia g n f (sl3 n a b c x y z) = f (sl3 n a b c x y z) * g (sl3 0 a b c x y z) := by
  rw [dia_apply]; congr 2; simp only [sl3]; abel

variable {g : (σ → ℤ) → ℝ} (hg : ∀ s, g (-s) = -g s)
include hg

theorem odd_sl1 (a : σ) (x : ℤ) : g (sl1 0 a (-x)) = -g (sl1 0 a x) := by
  rw [← hg]; congr 1; simp only [sl1, neg_smul]; abel

theorem odd_sl2 (a b : σ) (x y : ℤ) : g (sl2 0 a b (-x) (-y)) = -g (sl2 0 a b x y) := by
  rw [← hg]; congr 1; simp only [sl2, neg_smul]; abel

theorem odd_sl3 (a b c : σ) (x y z : ℤ) : g (sl3 0 a b c (-x) (-y) (-z)) = -g (sl3 0 a b c x y z) := by
  rw [← hg]; congr 1; simp only [sl3, neg_smul]; abel

/-- Three times the same mode. -/
theorem G_jjj (j : σ) :
    q j (q j (q j (dia g n (q j (q j (q j (one n))))))) n =
      (9 * (3 * (n j : ℝ) ^ 2 + 3 * n j + 1) * g (sl1 0 j 1) +
        (3 * (3 * (n j : ℝ) ^ 2 + 3 * n j + 2)) * g (sl1 0 j 3)) / 8 := by
  refine (at_sl1 n _ j).trans ?_
  simp only [q_sl1, dia_sl1, one_sl1]
  norm_num
  rw [odd_sl1 hg j 1, odd_sl1 hg j 3]
  ring_nf
  simp only [rt6]
  ring

theorem G_llj {l j : σ} (hlj : l ≠ j) :
    q l (q l (q j (dia g n (q l (q l (q j (one n))))))) n =
      ((n l : ℝ) + 1 / 2) ^ 2 / 2 * g (sl2 0 l j 0 1) +
      ((((n l : ℝ) + 1) * (n l + 2) * (n j + 1) - n l * (n l - 1) * n j) * g (sl2 0 l j 2 1) +
       (((n l : ℝ) + 1) * (n l + 2) * n j - n l * (n l - 1) * (n j + 1)) * g (sl2 0 l j 2 (-1))) / 8 := by
  refine (at_sl2 n _ l j).trans ?_
  simp only [q_sl2a n _ hlj, q_sl2b n _ hlj, dia_sl2, one_sl2 n hlj]
  norm_num
  have e1 : g (sl2 0 l j 0 (-1)) = -g (sl2 0 l j 0 1) := by rw [← odd_sl2 hg l j, neg_zero]
  have e2 : g (sl2 0 l j (-2) 1) = -g (sl2 0 l j 2 (-1)) := by rw [← odd_sl2 hg l j, neg_neg]
  rw [e1, e2, odd_sl2 hg l j 2 1]
  ring_nf
  simp only [rt6]
  ring

/-- One mode three times on one side, two modes on the other. -/
theorem G_jjj_llj {l j : σ} (hlj : l ≠ j) :
    q j (q j (q j (dia g n (q l (q l (q j (one n))))))) n =
      3 / 2 * ((n l : ℝ) + 1 / 2) * (n j + 1 / 2) * g (sl2 0 l j 0 1) := by
  refine (at_sl2 n _ l j).trans ?_
  simp only [q_sl2a n _ hlj, q_sl2b n _ hlj, dia_sl2, one_sl2 n hlj]
  norm_num
  have e1 : g (sl2 0 l j 0 (-1)) = -g (sl2 0 l j 0 1) := by rw [← odd_sl2 hg l j, neg_zero]
  rw [e1]
  ring_nf
  simp only [rt6]
  ring

theorem G_llj_jjj {l j : σ} (hlj : l ≠ j) :
    q l (q l (q j (dia g n (q j (q j (q j (one n))))))) n =
      3 / 2 * ((n l : ℝ) + 1 / 2) * (n j + 1 / 2) * g (sl2 0 l j 0 1) := by
  refine (at_sl2 n _ l j).trans ?_
  simp only [q_sl2a n _ hlj, q_sl2b n _ hlj, dia_sl2, one_sl2 n hlj]
  norm_num
  have e1 : g (sl2 0 l j 0 (-1)) = -g (sl2 0 l j 0 1) := by rw [← odd_sl2 hg l j, neg_zero]
  rw [e1]
  ring_nf
  simp only [rt6]
  ring

theorem G_llj_mmj {l m j : σ} (hlm : l ≠ m) (hlj : l ≠ j) (hmj : m ≠ j) :
    q l (q l (q j (dia g n (q m (q m (q j (one n))))))) n =
      ((n l : ℝ) + 1 / 2) * (n m + 1 / 2) / 2 * g (sl3 0 l m j 0 0 1) := by
  refine (at_sl3 n _ l m j).trans ?_
  simp only [q_sl3a n _ hlm hlj, q_sl3b n _ hlm hmj, q_sl3c n _ hlj hmj, dia_sl3, one_sl3 n hlm hlj hmj]
  norm_num
  have e1 : g (sl3 0 l m j 0 0 (-1)) = -g (sl3 0 l m j 0 0 1) := by rw [← odd_sl3 hg l m j, neg_zero]
  rw [e1]
  ring_nf
  simp only [rt6]
  ring

/-- Three different modes. -/
theorem G_abc {a b c : σ} (hab : a ≠ b) (hac : a ≠ c) (hbc : b ≠ c) :
    q a (q b (q c (dia g n (q a (q b (q c (one n))))))) n =
      ((((n a : ℝ) + 1) * (n b + 1) * (n c + 1) - n a * n b * n c) * g (sl3 0 a b c 1 1 1) +
       ((n a : ℝ) * (n b + 1) * (n c + 1) - (n a + 1) * n b * n c) * g (sl3 0 a b c (-1) 1 1) +
       (((n a : ℝ) + 1) * n b * (n c + 1) - n a * (n b + 1) * n c) * g (sl3 0 a b c 1 (-1) 1) +
       (((n a : ℝ) + 1) * (n b + 1) * n c - n a * n b * (n c + 1)) * g (sl3 0 a b c 1 1 (-1))) / 8 := by
  refine (at_sl3 n _ a b c).trans ?_
  simp only [q_sl3a n _ hab hac, q_sl3b n _ hab hbc, q_sl3c n _ hac hbc, dia_sl3, one_sl3 n hab hac hbc]
  norm_num
  have e1 : g (sl3 0 a b c 1 (-1) (-1)) = -g (sl3 0 a b c (-1) 1 1) := by rw [← odd_sl3 hg a b c, neg_neg]
  have e2 : g (sl3 0 a b c (-1) 1 (-1)) = -g (sl3 0 a b c 1 (-1) 1) := by rw [← odd_sl3 hg a b c, neg_neg]
  have e3 : g (sl3 0 a b c (-1) (-1) 1) = -g (sl3 0 a b c 1 1 (-1)) := by rw [← odd_sl3 hg a b c, neg_neg]
  rw [e1, e2, e3, odd_sl3 hg a b c 1 1 1]
  ring_nf
  simp only [rt6]
  ring

omit hg

/-- The expectation values of the quartic terms. -/
theorem Q_iiii (i : σ) : q i (q i (q i (q i (one n)))) n = 3 / 2 * ((n i : ℝ) + 1 / 2) ^ 2 + 3 / 8 := by
  refine (at_sl1 n _ i).trans ?_
  simp only [q_sl1, one_sl1]
  norm_num
  ring_nf
  simp only [rt4]
  ring

theorem Q_iijj {i j : σ} (h : i ≠ j) :
    q i (q i (q j (q j (one n)))) n = ((n i : ℝ) + 1 / 2) * (n j + 1 / 2) := by
  refine (at_sl2 n _ i j).trans ?_
  simp only [q_sl2a n _ h, q_sl2b n _ h, one_sl2 n h]
  norm_num
  ring_nf
  simp only [rt4]
  ring

/-- The expectation values of the squared angular momentum. -/
theorem D_klkl {k l : σ} (h : k ≠ l) :
    q k (d l (q k (d l (one n)))) n = -(((n k : ℝ) + 1 / 2) * (n l + 1 / 2)) := by
  refine (at_sl2 n _ k l).trans ?_
  simp only [q_sl2a n _ h, q_sl2b n _ h, d_sl2a n _ h, d_sl2b n _ h, one_sl2 n h]
  norm_num
  ring_nf
  simp only [rt4]
  ring

theorem D_kllk {k l : σ} (h : k ≠ l) :
    q k (d l (q l (d k (one n)))) n = -(1 / 4) := by
  refine (at_sl2 n _ k l).trans ?_
  simp only [q_sl2a n _ h, q_sl2b n _ h, d_sl2a n _ h, d_sl2b n _ h, one_sl2 n h]
  norm_num
  ring_nf
  simp only [rt4]
  ring

end Verif.Osc
