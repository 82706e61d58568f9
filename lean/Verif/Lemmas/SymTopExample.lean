import Verif.Lemmas.SexticTopEnd

/-! A molecule with an axis of order three: one mode that keeps the symmetry, and a degenerate pair. -/

namespace Verif

open MvPolynomial

/-- The derivatives of the inertia tensor: xx, xy, yy, xz, yz, zz. With `e = 0` the plane `z = 0` is one of symmetry. -/
def topWila (e : ℝ) : Mat ℝ
  | 0, 0 => 1 | 0, 2 => 1 | 0, 5 => 2
  | 1, 0 => 1 | 1, 2 => -1 | 1, 3 => e
  | 2, 1 => -1 | 2, 4 => e
  | _, _ => 0

/-- One cubic force constant. -/
def topF3 : T3 ℝ
  | 0, 0, 0 => 6
  | _, _, _ => 0

theorem topF3_symm (i j k : ℕ) : topF3 i j k = topF3 j i k ∧ topF3 i j k = topF3 i k j := by
  rcases i with _ | i <;> rcases j with _ | j <;> rcases k with _ | k <;> exact ⟨rfl, rfl⟩

noncomputable def topData (e : ℝ) (B : Vec ℝ) : RotorData :=
  rotorData 3 B (fun _ => 1) (fun _ => 1) (topWila e) (fun _ _ _ => 0) topF3

section
variable (e x y z : ℝ)
def topA : ℝ := x ^ 2 + y ^ 2 + 2 * z ^ 2
def topE1 : ℝ := x ^ 2 - y ^ 2 + 2 * e * x * z
def topE2 : ℝ := -(2 * x * y) + 2 * e * y * z
def topT0 : ℝ := x * topA x y z + (x + e * z) * topE1 e x y z - y * topE2 e x y z
def topT1 : ℝ := y * topA x y z - y * topE1 e x y z + (e * z - x) * topE2 e x y z
def topT2 : ℝ := 2 * z * topA x y z + e * x * topE1 e x y z + e * y * topE2 e x y z
end

theorem topData_tau (e : ℝ) (B : Vec ℝ) (i j k l : ℕ) : (topData e B).τ i j k l =
    -(38333.84078 / 2) * (topWila e 0 (pairIdx i j) * topWila e 0 (pairIdx k l) +
      topWila e 1 (pairIdx i j) * topWila e 1 (pairIdx k l) + topWila e 2 (pairIdx i j) * topWila e 2 (pairIdx k l)) := by
  simp [RotorData.τ, topData, rotorData, Finset.sum_range_succ]

theorem topData_H4 (e : ℝ) (B : Vec ℝ) (x y z : ℝ) : eval ![x, y, z] (topData e B).H4 =
    -(38333.84078 / 8) * (topA x y z ^ 2 + topE1 e x y z ^ 2 + topE2 e x y z ^ 2) := by
  simp only [RotorData.H4, topData_tau, sum3, map_add, map_mul, eval_C, eval_X]
  simp [pairIdx, ioff, topWila, topA, topE1, topE2]
  ring

theorem topData_torque (e : ℝ) (B : Vec ℝ) (x y z : ℝ) :
    eval ![x, y, z] ((topData e B).torque 0) = -(38333.84078 / 2) * topT0 e x y z ∧
    eval ![x, y, z] ((topData e B).torque 1) = -(38333.84078 / 2) * topT1 e x y z ∧
    eval ![x, y, z] ((topData e B).torque 2) = -(38333.84078 / 2) * topT2 e x y z := by
  simp only [RotorData.torque, topData_tau, sum3, map_add, map_mul, eval_C, eval_X]
  refine ⟨?_, ?_, ?_⟩ <;> simp [pairIdx, ioff, topWila, topA, topE1, topE2, topT0, topT1, topT2] <;> ring

theorem topData_H6 (e : ℝ) (B : Vec ℝ) : ∃ K : ℝ, ∀ x y z : ℝ, eval ![x, y, z] (topData e B).H6 =
    3 / 16 * ((38333.84078 / 2) ^ 2 * (topT0 e x y z ^ 2 / B 0 + topT1 e x y z ^ 2 / B 1 + topT2 e x y z ^ 2 / B 2)) +
      (K * topA x y z) ^ 3 := by
  refine ⟨1 / (2 * (0.1722212503791076 ^ 2) ^ (3 / 2 : ℝ)), fun x y z => ?_⟩
  obtain ⟨t0, t1, t2⟩ := topData_torque e B x y z
  have hs : eval ![x, y, z] ((topData e B).shift 0) = 1 / (2 * (0.1722212503791076 ^ 2) ^ (3 / 2 : ℝ)) * topA x y z := by
    simp only [RotorData.shift, sum3, map_add, map_mul, eval_C, eval_X]
    simp [topData, rotorData, pairIdx, ioff, topWila, topA]
    ring
  have hc : ∀ i, (topData e B).coriolis i = 0 := by
    intro i
    simp [RotorData.coriolis, topData, rotorData]
  have hk : (∑ i ∈ Finset.range (topData e B).nvib, ∑ j ∈ Finset.range (topData e B).nvib, ∑ k ∈ Finset.range (topData e B).nvib,
      C ((topData e B).k i j k) * ((topData e B).shift i * (topData e B).shift j * (topData e B).shift k) : Poly) =
      C 6 * (topData e B).shift 0 ^ 3 := by
    rw [show (topData e B).nvib = 3 from rfl]
    simp only [Finset.sum_range_succ, Finset.sum_range_zero, zero_add]
    have z : ∀ i j k, (i, j, k) ≠ (0, 0, 0) → C ((topData e B).k i j k) = (0 : Poly) := by
      intro i j k h
      show C (topF3 i j k) = 0
      rcases i with _ | i <;> rcases j with _ | j <;> rcases k with _ | k <;> first | exact absurd rfl h | exact map_zero _
    rw [z 0 0 1, z 0 0 2, z 0 1 0, z 0 1 1, z 0 1 2, z 0 2 0, z 0 2 1, z 0 2 2, z 1 0 0, z 1 0 1, z 1 0 2, z 1 1 0, z 1 1 1,
      z 1 1 2, z 1 2 0, z 1 2 1, z 1 2 2, z 2 0 0, z 2 0 1, z 2 0 2, z 2 1 0, z 2 1 1, z 2 1 2, z 2 2 0, z 2 2 1, z 2 2 2]
    · rw [show (topData e B).k 0 0 0 = 6 from rfl]
      ring
    all_goals decide
  rw [RotorData.H6, hk]
  simp only [sum3, hc, map_add, map_sub, map_mul, map_pow, eval_C, hs]
  rw [show (((0 : Fin 3) : ℕ)) = 0 from rfl, show (((1 : Fin 3) : ℕ)) = 1 from rfl, show (((2 : Fin 3) : ℕ)) = 2 from rfl, t0, t1, t2]
  rw [show (topData e B).B = B from rfl]
  simp
  ring

theorem top_mirror (e : ℝ) (B : Vec ℝ) : Mirror (topData e B).H4 ∧ Mirror (topData e B).H6 := by
  constructor
  · intro x y z
    rw [topData_H4, topData_H4]
    simp only [topA, topE1, topE2]
    ring
  · intro x y z
    obtain ⟨K, h⟩ := topData_H6 e B
    rw [h, h]
    simp only [topT0, topT1, topT2, topA, topE1, topE2]
    ring

theorem top_mirrorZ (B : Vec ℝ) : MirrorZ (topData 0 B).H4 ∧ MirrorZ (topData 0 B).H6 := by
  constructor
  · intro x y z
    rw [topData_H4, topData_H4]
    simp only [topA, topE1, topE2]
    ring
  · intro x y z
    obtain ⟨K, h⟩ := topData_H6 0 B
    rw [h, h]
    simp only [topT0, topT1, topT2, topA, topE1, topE2]
    ring

theorem top_turned (e : ℝ) (B : Vec ℝ) {s : ℝ} (hs : s ^ 2 = 3 / 4) :
    Turn (-1 / 2) s (topData e B).H4 ∧ (B 0 = B 1 → Turn (-1 / 2) s (topData e B).H6) := by
  have a : ∀ x y z : ℝ, topA (-1 / 2 * x - s * y) (s * x + -1 / 2 * y) z = topA x y z := by
    intro x y z
    simp only [topA]
    linear_combination (x ^ 2 + y ^ 2) * hs
  have e1 : ∀ x y z : ℝ, topE1 e (-1 / 2 * x - s * y) (s * x + -1 / 2 * y) z = -1 / 2 * topE1 e x y z - s * topE2 e x y z := by
    intro x y z
    simp only [topE1, topE2]
    linear_combination (y ^ 2 - x ^ 2) * hs
  have e2 : ∀ x y z : ℝ, topE2 e (-1 / 2 * x - s * y) (s * x + -1 / 2 * y) z = s * topE1 e x y z + -1 / 2 * topE2 e x y z := by
    intro x y z
    simp only [topE1, topE2]
    linear_combination (2 * x * y) * hs
  constructor
  · intro x y z
    rw [topData_H4, topData_H4, a, e1, e2]
    linear_combination (-(38333.84078 / 8) * (topE1 e x y z ^ 2 + topE2 e x y z ^ 2)) * hs
  · intro hB x y z
    obtain ⟨K, h⟩ := topData_H6 e B
    rw [h, h, a, hB]
    have t0 : topT0 e (-1 / 2 * x - s * y) (s * x + -1 / 2 * y) z = -1 / 2 * topT0 e x y z - s * topT1 e x y z := by
      simp only [topT0, topT1, a, e1, e2]
      linear_combination (-(x * topE1 e x y z) + y * topE2 e x y z) * hs
    have t1 : topT1 e (-1 / 2 * x - s * y) (s * x + -1 / 2 * y) z = s * topT0 e x y z + -1 / 2 * topT1 e x y z := by
      simp only [topT0, topT1, a, e1, e2]
      linear_combination (y * topE1 e x y z + x * topE2 e x y z) * hs
    have t2 : topT2 e (-1 / 2 * x - s * y) (s * x + -1 / 2 * y) z = topT2 e x y z := by
      simp only [topT2, a, e1, e2]
      linear_combination (e * x * topE1 e x y z + e * y * topE2 e x y z) * hs
    rw [t0, t1, t2]
    have : (-1 / 2 * topT0 e x y z - s * topT1 e x y z) ^ 2 + (s * topT0 e x y z + -1 / 2 * topT1 e x y z) ^ 2 =
        topT0 e x y z ^ 2 + topT1 e x y z ^ 2 := by
      linear_combination (topT0 e x y z ^ 2 + topT1 e x y z ^ 2) * hs
    rw [← add_div, ← add_div, this]

/-- Rotational constants of an oblate top, not quite equal. -/
def nearOblB : Vec ℝ
  | 0 => 2
  | 2 => 1
  | _ => 2.0000001

/-- The first mode changes the moment of inertia of the axis. -/
def flatWila : Mat ℝ
  | 0, 5 => 2
  | _, _ => 0

/-- It couples to the other two. -/
noncomputable def flatZeta : T3 ℝ
  | 0, 1, 0 => 1 / nearOblB 0
  | 1, 0, 0 => -(1 / nearOblB 0)
  | 0, 2, 1 => 1 / nearOblB 1
  | 2, 0, 1 => -(1 / nearOblB 1)
  | _, _, _ => 0

noncomputable def flatData : RotorData := rotorData 3 nearOblB (fun _ => 1) (fun _ => 1) flatWila flatZeta topF3

theorem flat_tau (i j k l : ℕ) : flatData.τ i j k l =
    -(38333.84078 / 2) * (flatWila 0 (pairIdx i j) * flatWila 0 (pairIdx k l)) := by
  have h1 : ∀ c, flatWila 1 c = 0 := fun c => rfl
  have h2 : ∀ c, flatWila 2 c = 0 := fun c => rfl
  simp [RotorData.τ, flatData, rotorData, Finset.sum_range_succ, h1, h2]

theorem flat_H4 (x y z : ℝ) : eval ![x, y, z] flatData.H4 = -(38333.84078 / 2) * z ^ 4 := by
  simp only [RotorData.H4, flat_tau, sum3, map_add, map_mul, eval_C, eval_X]
  simp [pairIdx, ioff, flatWila]
  ring

theorem flat_H6 : ∃ a b : ℝ, ∀ x y z : ℝ, eval ![x, y, z] flatData.H6 = a * z ^ 6 + b * (z ^ 4 * (x ^ 2 + y ^ 2)) := by
  have hs : ∀ v ≠ 0, flatData.shift v = 0 := by
    intro v hv
    have h : ∀ c, flatWila v c = 0 := by
      intro c
      rcases v with _ | v
      · exact absurd rfl hv
      · rfl
    simp [RotorData.shift, flatData, rotorData, h]
  obtain ⟨K, hK⟩ : ∃ K : ℝ, ∀ x y z : ℝ, eval ![x, y, z] (flatData.shift 0) = K * z ^ 2 := by
    refine ⟨1 / (0.1722212503791076 ^ 2) ^ (3 / 2 : ℝ), fun x y z => ?_⟩
    simp only [RotorData.shift, sum3, map_add, map_mul, eval_C, eval_X]
    simp [flatData, rotorData, pairIdx, ioff, flatWila]
    ring
  have t0 : ∀ x y z : ℝ, eval ![x, y, z] (flatData.torque 0) = 0 := by
    intro x y z
    simp only [RotorData.torque, flat_tau, sum3, map_add, map_mul, eval_C, eval_X]
    simp [pairIdx, ioff, flatWila]
  have t1 : ∀ x y z : ℝ, eval ![x, y, z] (flatData.torque 1) = 0 := by
    intro x y z
    simp only [RotorData.torque, flat_tau, sum3, map_add, map_mul, eval_C, eval_X]
    simp [pairIdx, ioff, flatWila]
  have t2 : ∀ x y z : ℝ, eval ![x, y, z] (flatData.torque 2) = -(2 * 38333.84078) * z ^ 3 := by
    intro x y z
    simp only [RotorData.torque, flat_tau, sum3, map_add, map_mul, eval_C, eval_X]
    simp [pairIdx, ioff, flatWila]
    ring
  have hc : ∀ i, flatData.coriolis i = C (3 : ℝ) * (flatData.shift 0 * ∑ g : Fin 3, C (flatZeta 0 i g * nearOblB g) * X g) := by
    intro i
    rw [RotorData.coriolis, show flatData.nvib = 3 from rfl]
    simp only [Finset.sum_range_succ, Finset.sum_range_zero, zero_add, hs 1 one_ne_zero, hs 2 two_ne_zero, zero_mul, mul_zero, add_zero]
    have e : flatData.ω 0 ^ (3 / 2 : ℝ) * (1 / flatData.ω 0 ^ 2 + 2 / flatData.ω i ^ 2) / √(flatData.ω i) = 3 := by
      simp only [flatData, rotorData]
      norm_num
    rw [e]
    rfl
  have n0 : nearOblB 0 ≠ 0 := by norm_num [nearOblB]
  have n1 : nearOblB 1 ≠ 0 := by norm_num [nearOblB]
  have c0 : flatData.coriolis 0 = 0 := by rw [hc]; simp [flatZeta]
  have c1 : flatData.coriolis 1 = C (3 : ℝ) * (flatData.shift 0 * X 0) := by
    rw [hc]
    simp [sum3, flatZeta]
    exact Or.inl (by rw [← C_mul, inv_mul_cancel₀ n0, C_1])
  have c2 : flatData.coriolis 2 = C (3 : ℝ) * (flatData.shift 0 * X 1) := by
    rw [hc]
    simp [sum3, flatZeta]
    exact Or.inl (by rw [← C_mul, inv_mul_cancel₀ n1, C_1])
  refine ⟨3 / 16 * (2 * 38333.84078) ^ 2 + K ^ 3, -18 * K ^ 2, fun x y z => ?_⟩
  rw [RotorData.H6, show flatData.nvib = 3 from rfl]
  simp only [Finset.sum_range_succ, Finset.sum_range_zero, zero_add, hs 1 one_ne_zero, hs 2 two_ne_zero, zero_mul, mul_zero, add_zero,
    c0, c1, c2, sum3]
  simp only [map_add, map_sub, map_mul, map_pow, eval_C, eval_X, hK]
  rw [show (((0 : Fin 3) : ℕ)) = 0 from rfl, show (((1 : Fin 3) : ℕ)) = 1 from rfl, show (((2 : Fin 3) : ℕ)) = 2 from rfl, t0, t1, t2]
  simp [flatData, rotorData, nearOblB, topF3]
  ring

theorem flat_symm {c s : ℝ} (h : c ^ 2 + s ^ 2 = 1) : Mirror flatData.H4 ∧ Mirror flatData.H6 ∧ MirrorZ flatData.H4 ∧
    MirrorZ flatData.H6 ∧ Turn c s flatData.H4 ∧ Turn c s flatData.H6 := by
  obtain ⟨a, b, h6⟩ := flat_H6
  refine ⟨fun x y z => ?_, fun x y z => ?_, fun x y z => ?_, fun x y z => ?_, fun x y z => ?_, fun x y z => ?_⟩
  · rw [flat_H4, flat_H4]
  · rw [h6, h6]; ring
  · rw [flat_H4, flat_H4]; ring
  · rw [h6, h6]; ring
  · rw [flat_H4, flat_H4]
  · rw [h6, h6]; linear_combination (b * z ^ 4 * (x ^ 2 + y ^ 2)) * h

end Verif
