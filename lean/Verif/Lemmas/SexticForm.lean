import Verif.Lemmas.SexticVal

/-! The polynomials of the rotational Hamiltonian in terms of the tensors of /repo/spectro/src/sextic.rs. -/

namespace Verif

open MvPolynomial

/-- The data read by `Sextic::new`. -/
def rotorData (nvib : Nat) (rotcon primat freq : Vec ℝ) (wila : Mat ℝ) (zmat f3 : T3 ℝ) : RotorData :=
  ⟨nvib, rotcon, primat, freq, fun v i j => wila v (pairIdx i j), zmat, f3⟩

section

variable (nvib : Nat) (rotcon primat freq : Vec ℝ) (wila : Mat ℝ) (zmat f3 : T3 ℝ)

theorem shift_form {c : Mat ℝ} (hc : c = cMat 3 nvib freq primat wila) {v : Nat} (hv : v < nvib) :
    (rotorData nvib rotcon primat freq wila zmat f3).shift v =
      formP (c v 0) (c v 2) (c v 5) (c v 1) (c v 3) (c v 4) := by
  subst hc
  have h0 := c_values freq primat wila hv (x := 0) (y := 0) (by norm_num) le_rfl
  have h1 := c_values freq primat wila hv (x := 1) (y := 0) (by norm_num) (by norm_num)
  have h2 := c_values freq primat wila hv (x := 1) (y := 1) (by norm_num) le_rfl
  have h3 := c_values freq primat wila hv (x := 2) (y := 0) (by norm_num) (by norm_num)
  have h4 := c_values freq primat wila hv (x := 2) (y := 1) (by norm_num) (by norm_num)
  have h5 := c_values freq primat wila hv (x := 2) (y := 2) (by norm_num) le_rfl
  simp only [ioff] at h0 h1 h2 h3 h4 h5
  norm_num only at h0 h1 h2 h3 h4 h5
  rw [h0, h1, h2, h3, h4, h5]
  refine MvPolynomial.funext fun v => ?_
  simp only [RotorData.shift, rotorData, formP, sum3, map_add, map_mul, map_pow, eval_C, eval_X]
  simp [pairIdx, ioff]
  ring

theorem coriolis_form {c : Mat ℝ} (hc : c = cMat 3 nvib freq primat wila) {cc : T4 ℝ}
    (hcc : cc = ccTensor nvib 3 freq c zmat rotcon) {i : Nat} (hi : i < nvib) :
    (rotorData nvib rotcon primat freq wila zmat f3).coriolis i =
    cubicP (cc i 0 0 0) (cc i 1 1 1) (cc i 2 2 2) (cc i 1 0 0) (cc i 2 0 0) (cc i 0 1 1) (cc i 2 1 1)
      (cc i 0 2 2) (cc i 1 2 2) (2 * cc i 2 1 0) := by
  subst hcc
  obtain ⟨h1, h2, h3⟩ := cc_values freq c zmat rotcon hi
  rw [h1 0 (by norm_num), h1 1 (by norm_num), h1 2 (by norm_num), (h2 0 (by norm_num) 1 (by norm_num) (by norm_num)).1,
    (h2 0 (by norm_num) 2 (by norm_num) (by norm_num)).1, (h2 1 (by norm_num) 0 (by norm_num) (by norm_num)).1,
    (h2 1 (by norm_num) 2 (by norm_num) (by norm_num)).1, (h2 2 (by norm_num) 0 (by norm_num) (by norm_num)).1,
    (h2 2 (by norm_num) 1 (by norm_num) (by norm_num)).1, h3]
  have key : (rotorData nvib rotcon primat freq wila zmat f3).coriolis i = ∑ j ∈ Finset.range nvib,
      C (freq j ^ (3 / 2 : ℝ) * (1 / freq j ^ 2 + 2 / freq i ^ 2) / √(freq i)) *
      (formP (c j 0) (c j 2) (c j 5) (c j 1) (c j 3) (c j 4) * ∑ g : Fin 3, C (zmat j i g * rotcon g) * X g) :=
    Finset.sum_congr rfl fun j hj => by rw [shift_form _ _ _ _ _ _ _ hc (Finset.mem_range.1 hj)]; rfl
  rw [key]
  refine MvPolynomial.funext fun v => ?_
  simp only [map_sum, cubicP, formP, sum3, map_add, map_mul, map_pow, eval_C, eval_X]
  simp only [ccDiag, ccPair, ccTriple, ccFac, sumTo_real, lit_real, sq_real, sqrt_real, powf15_real]
  simp only [div_eq_mul_inv, Finset.sum_mul, Finset.mul_sum, ← Finset.sum_add_distrib]
  refine Finset.sum_congr rfl fun j _ => ?_
  norm_num [ioff]
  ring

end

end Verif
