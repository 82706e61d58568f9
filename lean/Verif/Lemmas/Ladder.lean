import Mathlib.Algebra.BigOperators.Pi
import Mathlib.Algebra.Module.LinearMap.Basic
import Mathlib.Data.ZMod.Basic
import Mathlib.Analysis.Real.Sqrt
import Mathlib.Tactic.FieldSimp
import Mathlib.Tactic.Ring
import Mathlib.Tactic.LinearCombination
import Mathlib.Tactic.NormNum

/-!
# Ladder operators on occupation numbers

Helpers for C102: the coordinates and derivatives of oscillators as operators on amplitudes of occupation numbers
(integers, so that nothing has to be cut off at zero), and the matrix elements second-order perturbation theory needs.
-/

namespace Verif.Osc

variable {σ : Type} [Fintype σ] [DecidableEq σ]

/-- One quantum in mode `i`. -/
def unit (i : σ) : σ → ℤ := Pi.single i 1

/-- `1 / √2`. -/
noncomputable def rt : ℝ := 1 / Real.sqrt 2

theorem rt_sq : rt * rt = 1 / 2 := by
  unfold rt
  have h : Real.sqrt 2 * Real.sqrt 2 = 2 := Real.mul_self_sqrt (by norm_num)
  have h0 : Real.sqrt 2 ≠ 0 := by positivity
  field_simp
  nlinarith

/-- The coordinate. -/
noncomputable def q (i : σ) : ((σ → ℤ) → ℝ) →ₗ[ℝ] ((σ → ℤ) → ℝ) where
  toFun f m := rt * (f (m - unit i) + ((m i : ℝ) + 1) * f (m + unit i))
  map_add' f g := by funext m; simp only [Pi.add_apply]; ring
  map_smul' c f := by funext m; simp only [Pi.smul_apply, smul_eq_mul, RingHom.id_apply]; ring

/-- The derivative. -/
noncomputable def d (i : σ) : ((σ → ℤ) → ℝ) →ₗ[ℝ] ((σ → ℤ) → ℝ) where
  toFun f m := rt * (((m i : ℝ) + 1) * f (m + unit i) - f (m - unit i))
  map_add' f g := by funext m; simp only [Pi.add_apply]; ring
  map_smul' c f := by funext m; simp only [Pi.smul_apply, smul_eq_mul, RingHom.id_apply]; ring

theorem q_apply (i : σ) (f : (σ → ℤ) → ℝ) (m : σ → ℤ) :
    q i f m = rt * (f (m - unit i) + ((m i : ℝ) + 1) * f (m + unit i)) := rfl

theorem d_apply (i : σ) (f : (σ → ℤ) → ℝ) (m : σ → ℤ) :
    d i f m = rt * (((m i : ℝ) + 1) * f (m + unit i) - f (m - unit i)) := rfl

/-- The energy of `m` relative to `n`. -/
noncomputable def gap (w : σ → ℝ) (n m : σ → ℤ) : ℝ := ∑ i, w i * ((m i : ℝ) - n i)

/-- The resolvent at the energy of `n`. -/
noncomputable def res (w : σ → ℝ) (n : σ → ℤ) : ((σ → ℤ) → ℝ) →ₗ[ℝ] ((σ → ℤ) → ℝ) where
  toFun f m := f m / gap w n m
  map_add' f g := by funext m; simp only [Pi.add_apply]; ring
  map_smul' c f := by funext m; simp only [Pi.smul_apply, smul_eq_mul, RingHom.id_apply]; ring

theorem res_apply (w : σ → ℝ) (n : σ → ℤ) (f : (σ → ℤ) → ℝ) (m : σ → ℤ) : res w n f m = f m / gap w n m := rfl

/-- The state with occupation numbers `n`. -/
noncomputable def one (n : σ → ℤ) : (σ → ℤ) → ℝ := fun m => if m = n then 1 else 0

theorem q_comm (i j : σ) (f : (σ → ℤ) → ℝ) : q i (q j f) = q j (q i f) := by
  by_cases h : i = j
  · rw [h]
  funext m
  simp only [q_apply]
  have h1 : unit i j = 0 := by simp [unit, h]
  have h2 : unit j i = 0 := by simp [unit, Ne.symm h]
  simp only [Pi.sub_apply, Pi.add_apply, h1, h2, sub_zero, add_zero]
  rw [sub_right_comm m (unit i), add_right_comm m (unit i), show m + unit i - unit j = m - unit j + unit i by abel,
    show m - unit i + unit j = m + unit j - unit i by abel]
  ring

/-! ## Slices -/

/-- The occupation numbers `n` with `x` quanta more in mode `a`. -/
def sl1 (n : σ → ℤ) (a : σ) (x : ℤ) : σ → ℤ := n + x • unit a

/-- Same for two modes. -/
def sl2 (n : σ → ℤ) (a b : σ) (x y : ℤ) : σ → ℤ := n + x • unit a + y • unit b

/-- Same for three modes. -/
def sl3 (n : σ → ℤ) (a b c : σ) (x y z : ℤ) : σ → ℤ := n + x • unit a + y • unit b + z • unit c

theorem gap_add (w : σ → ℝ) (n m : σ → ℤ) (x : ℤ) (a : σ) : gap w n (m + x • unit a) = gap w n m + x * w a := by
  unfold gap
  have : ∀ i, w i * (((m + x • unit a) i : ℤ) - n i : ℝ) = w i * ((m i : ℝ) - n i) + if i = a then x * w a else 0 := by
    intro i
    by_cases h : i = a
    · subst h; simp [unit]; ring
    · simp [unit, h]
  simp only [this, Finset.sum_add_distrib, Finset.sum_ite_eq', Finset.mem_univ, if_true]

theorem gap_self (w : σ → ℝ) (n : σ → ℤ) : gap w n n = 0 := by simp [gap]

variable (n : σ → ℤ) (w : σ → ℝ) (f : (σ → ℤ) → ℝ)

theorem sl1_zero (a : σ) : sl1 n a 0 = n := by simp [sl1]
theorem sl2_zero (a b : σ) : sl2 n a b 0 0 = n := by simp [sl2]
theorem sl3_zero (a b c : σ) : sl3 n a b c 0 0 0 = n := by simp [sl3]

theorem q_sl1 (a : σ) (x : ℤ) : q a f (sl1 n a x) =
    rt * (f (sl1 n a (x - 1)) + ((n a : ℝ) + x + 1) * f (sl1 n a (x + 1))) := by
  rw [q_apply]
  congr 2
  · congr 1; simp only [sl1, sub_smul, one_smul]; abel
  · congr 1
    · simp [sl1, unit]
    · congr 1; simp only [sl1, add_smul, one_smul]; abel

theorem d_sl1 (a : σ) (x : ℤ) : d a f (sl1 n a x) =
    rt * (((n a : ℝ) + x + 1) * f (sl1 n a (x + 1)) - f (sl1 n a (x - 1))) := by
  rw [d_apply]
  congr 2
  · congr 1
    · simp [sl1, unit]
    · congr 1; simp only [sl1, add_smul, one_smul]; abel
  · congr 1; simp only [sl1, sub_smul, one_smul]; abel

theorem q_sl2a {a b : σ} (h : a ≠ b) (x y : ℤ) : q a f (sl2 n a b x y) =
    rt * (f (sl2 n a b (x - 1) y) + ((n a : ℝ) + x + 1) * f (sl2 n a b (x + 1) y)) := by
  rw [q_apply]
  congr 2
  · congr 1; simp only [sl2, sub_smul, one_smul]; abel
  · congr 1
    · simp [sl2, unit, h]
    · congr 1; simp only [sl2, add_smul, one_smul]; abel

theorem q_sl2b {a b : σ} (h : a ≠ b) (x y : ℤ) : q b f (sl2 n a b x y) =
    rt * (f (sl2 n a b x (y - 1)) + ((n b : ℝ) + y + 1) * f (sl2 n a b x (y + 1))) := by
  rw [q_apply]
  congr 2
  · congr 1; simp only [sl2, sub_smul, one_smul]; abel
  · congr 1
    · simp [sl2, unit, h.symm]
    · congr 1; simp only [sl2, add_smul, one_smul]; abel

theorem d_sl2a {a b : σ} (h : a ≠ b) (x y : ℤ) : d a f (sl2 n a b x y) =
    rt * (((n a : ℝ) + x + 1) * f (sl2 n a b (x + 1) y) - f (sl2 n a b (x - 1) y)) := by
  rw [d_apply]
  congr 2
  · congr 1
    · simp [sl2, unit, h]
    · congr 1; simp only [sl2, add_smul, one_smul]; abel
  · congr 1; simp only [sl2, sub_smul, one_smul]; abel

theorem d_sl2b {a b : σ} (h : a ≠ b) (x y : ℤ) : d b f (sl2 n a b x y) =
    rt * (((n b : ℝ) + y + 1) * f (sl2 n a b x (y + 1)) - f (sl2 n a b x (y - 1))) := by
  rw [d_apply]
  congr 2
  · congr 1
    · simp [sl2, unit, h.symm]
    · congr 1; simp only [sl2, add_smul, one_smul]; abel
  · congr 1; simp only [sl2, sub_smul, one_smul]; abel

theorem q_sl3a {a b c : σ} (h : a ≠ b) (h' : a ≠ c) (x y z : ℤ) : q a f (sl3 n a b c x y z) =
    rt * (f (sl3 n a b c (x - 1) y z) + ((n a : ℝ) + x + 1) * f (sl3 n a b c (x + 1) y z)) := by
  rw [q_apply]
  congr 2
  · congr 1; simp only [sl3, sub_smul, one_smul]; abel
  · congr 1
    · simp [sl3, unit, h, h']
    · congr 1; simp only [sl3, add_smul, one_smul]; abel

theorem q_sl3b {a b c : σ} (h : a ≠ b) (h' : b ≠ c) (x y z : ℤ) : q b f (sl3 n a b c x y z) =
    rt * (f (sl3 n a b c x (y - 1) z) + ((n b : ℝ) + y + 1) * f (sl3 n a b c x (y + 1) z)) := by
  rw [q_apply]
  congr 2
  · congr 1; simp only [sl3, sub_smul, one_smul]; abel
  · congr 1
    · simp [sl3, unit, h.symm, h']
    · congr 1; simp only [sl3, add_smul, one_smul]; abel

theorem q_sl3c {a b c : σ} (h : a ≠ c) (h' : b ≠ c) (x y z : ℤ) : q c f (sl3 n a b c x y z) =
    rt * (f (sl3 n a b c x y (z - 1)) + ((n c : ℝ) + z + 1) * f (sl3 n a b c x y (z + 1))) := by
  rw [q_apply]
  congr 2
  · congr 1; simp only [sl3, sub_smul, one_smul]; abel
  · congr 1
    · simp [sl3, unit, h.symm, h'.symm]
    · congr 1; simp only [sl3, add_smul, one_smul]; abel

theorem res_sl1 (a : σ) (x : ℤ) : res w n f (sl1 n a x) = f (sl1 n a x) / (x * w a) := by
  rw [res_apply]; simp only [sl1, gap_add, gap_self, zero_add]

theorem res_sl2 (a b : σ) (x y : ℤ) : res w n f (sl2 n a b x y) = f (sl2 n a b x y) / (x * w a + y * w b) := by
  rw [res_apply]; simp only [sl2, gap_add, gap_self, zero_add]

theorem res_sl3 (a b c : σ) (x y z : ℤ) :
    res w n f (sl3 n a b c x y z) = f (sl3 n a b c x y z) / (x * w a + y * w b + z * w c) := by
  rw [res_apply]; simp only [sl3, gap_add, gap_self, zero_add]

theorem one_sl1 (a : σ) (x : ℤ) : one n (sl1 n a x) = if x = 0 then 1 else 0 := by
  unfold one
  congr 1
  apply propext
  constructor
  · intro h
    have := congrFun h a
    simpa [sl1, unit] using this
  · rintro rfl; exact sl1_zero n a

theorem one_sl2 {a b : σ} (h : a ≠ b) (x y : ℤ) : one n (sl2 n a b x y) = if x = 0 ∧ y = 0 then 1 else 0 := by
  unfold one
  congr 1
  apply propext
  constructor
  · intro e
    have e1 := congrFun e a
    have e2 := congrFun e b
    simp [sl2, unit, h, h.symm] at e1 e2
    exact ⟨e1, e2⟩
  · rintro ⟨rfl, rfl⟩; exact sl2_zero n a b

theorem one_sl3 {a b c : σ} (h : a ≠ b) (h' : a ≠ c) (h'' : b ≠ c) (x y z : ℤ) :
    one n (sl3 n a b c x y z) = if x = 0 ∧ y = 0 ∧ z = 0 then 1 else 0 := by
  unfold one
  congr 1
  apply propext
  constructor
  · intro e
    have e1 := congrFun e a
    have e2 := congrFun e b
    have e3 := congrFun e c
    simp [sl3, unit, h, h.symm, h', h'.symm, h'', h''.symm] at e1 e2 e3
    exact ⟨e1, e2, e3⟩
  · rintro ⟨rfl, rfl, rfl⟩; exact sl3_zero n a b c

end Verif.Osc
