import Verif.Extended

/-! Infinities and NaN in the operations. -/

namespace Verif

open Ext

theorem ext_nan_add (x : Ext) : nan + x = nan := by cases x <;> rfl
theorem ext_add_nan (x : Ext) : x + nan = nan := by cases x <;> rfl
theorem ext_nan_sub (x : Ext) : nan - x = nan := by cases x <;> rfl
theorem ext_sub_nan (x : Ext) : x - nan = nan := by cases x <;> rfl
theorem ext_nan_mul (x : Ext) : nan * x = nan := by cases x <;> rfl
theorem ext_mul_nan (x : Ext) : x * nan = nan := by cases x <;> rfl
theorem ext_nan_div (x : Ext) : nan / x = nan := by cases x <;> rfl
theorem ext_lit (q : ℚ) : (Arith.lit q : Ext) = fin q := rfl
theorem ext_fin_add (x y : ℝ) : fin x + fin y = fin (x + y) := rfl
theorem ext_fin_sub (x y : ℝ) : fin x - fin y = fin (x - y) := by rw [sub_eq_add_neg]; rfl
theorem ext_fin_mul (x y : ℝ) : fin x * fin y = fin (x * y) := rfl
theorem ext_fin_div (x : ℝ) {y : ℝ} (h : y ≠ 0) : fin x / fin y = fin (x / y) := if_neg h
theorem ext_inf_mul (a : Bool) (x : Ext) : inf a * x = nan ∨ ∃ b, inf a * x = inf b := by
  rcases x with y | b | _
  · by_cases h : y = 0
    · exact Or.inl (if_pos h)
    · exact Or.inr ⟨_, if_neg h⟩
  · exact Or.inr ⟨_, rfl⟩
  · exact Or.inl rfl
theorem ext_add_inf {x : Ext} (h : x = nan ∨ ∃ b, x = inf b) (y : Ext) : x + y = nan ∨ ∃ b, x + y = inf b := by
  rcases h with rfl | ⟨b, rfl⟩
  · exact Or.inl (ext_nan_add y)
  · rcases y with y | c | _
    · exact Or.inr ⟨_, rfl⟩
    · by_cases h : b = c
      · exact Or.inr ⟨_, if_pos h⟩
      · exact Or.inl (if_neg h)
    · exact Or.inl rfl
theorem ext_sub_inf {x : Ext} (h : x = nan ∨ ∃ b, x = inf b) (y : Ext) : x - y = nan ∨ ∃ b, x - y = inf b :=
  ext_add_inf h (-y)
theorem ext_div_inf {x : Ext} (h : x = nan ∨ ∃ b, x = inf b) (a : Bool) : x / inf a = nan := by
  rcases h with rfl | ⟨b, rfl⟩ <;> rfl

end Verif
