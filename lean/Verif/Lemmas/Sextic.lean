import Verif.Spec.Sextic
import Mathlib.Algebra.MvPolynomial.Funext
import Mathlib.Tactic.Ring
import Mathlib.Tactic.FieldSimp
import Mathlib.Tactic.LinearCombination

/-! Brackets of polynomials in the angular momentum components. -/

namespace Verif

open MvPolynomial

theorem pd (i j : Fin 3) : pderiv i (X j : Poly) = if i = j then 1 else 0 := by
  rw [pderiv_X]
  by_cases h : i = j
  · subst h; simp
  · simp [h]

/-- The rigid rotor in terms of `B200`, `B002` and the asymmetry `σ`. -/
noncomputable def cyl2 (x y z : Fin 3) (b200 β σ : ℝ) : Poly :=
  C b200 * jj + 2 * C σ * C β * X z ^ 2 + 2 * C β * re2 x y

/-- A quartic in the squares in cylindrical form. -/
noncomputable def cyl4 (x y z : Fin 3) (t400 t220 t040 t202 t022 t004 : ℝ) : Poly :=
  C t400 * jj ^ 2 + C t220 * jj * X z ^ 2 + C t040 * X z ^ 4 +
    2 * (C t202 * jj + C t022 * X z ^ 2) * re2 x y + 2 * C t004 * re4 x y

/-- A sextic in the squares in cylindrical form. -/
noncomputable def cyl6 (x y z : Fin 3) (f600 f420 f240 f060 f402 f222 f042 f204 f024 f006 : ℝ) : Poly :=
  C f600 * jj ^ 3 + C f420 * jj ^ 2 * X z ^ 2 + C f240 * jj * X z ^ 4 + C f060 * X z ^ 6 +
    2 * (C f402 * jj ^ 2 + C f222 * jj * X z ^ 2 + C f042 * X z ^ 4) * re2 x y +
    2 * (C f204 * jj + C f024 * X z ^ 2) * re4 x y + 2 * C f006 * re6 x y

theorem pd2 (i : Fin 3) : pderiv i (2 : Poly) = 0 := pderiv_C (a := 2)
theorem pd6 (i : Fin 3) : pderiv i (6 : Poly) = 0 := pderiv_C (a := 6)
theorem pd15 (i : Fin 3) : pderiv i (15 : Poly) = 0 := pderiv_C (a := 15)

/-- Evaluation of a bracket. -/
theorem eval_bracket (v : Fin 3 → ℝ) (f g : Poly) : eval v (bracket f g) =
    v 0 * (eval v (pderiv 1 f) * eval v (pderiv 2 g) - eval v (pderiv 2 f) * eval v (pderiv 1 g)) +
    v 1 * (eval v (pderiv 2 f) * eval v (pderiv 0 g) - eval v (pderiv 0 f) * eval v (pderiv 2 g)) +
    v 2 * (eval v (pderiv 0 f) * eval v (pderiv 1 g) - eval v (pderiv 1 f) * eval v (pderiv 0 g)) := by
  simp [bracket]

theorem bracket_rotor (b200 β σ s : ℝ) :
    bracket (cyl2 1 2 0 b200 β σ) (C s * (X 0 * X 1 * X 2)) =
      cyl4 1 2 0 (-(β * s)) (6 * β * s) (-5 * β * s) 0 (-2 * σ * β * s) (β * s / 2) := by
  refine MvPolynomial.funext fun v => ?_
  rw [eval_bracket]
  simp only [cyl2, cyl4, jj, re2, re4, map_add, map_sub, map_neg, map_mul, map_pow, Derivation.leibniz,
    Derivation.leibniz_pow, pderiv_C, pd, pd2, pd6, pd15, smul_eq_mul, nsmul_eq_mul, eval_C, eval_X, map_ofNat]
  simp
  ring

theorem bracket_quartic (t400 t220 t040 t202 t022 t004 s : ℝ) :
    bracket (cyl4 1 2 0 t400 t220 t040 t202 t022 t004) (C s * (X 0 * X 1 * X 2)) =
      cyl6 1 2 0 (-(s * t202)) (6 * s * t202 - 3 * s * t022) (10 * s * t022 - 5 * s * t202) (-7 * s * t022)
        (-(s * t004)) (6 * s * t004 - s * t220) (-5 * s * t004 - 2 * s * t040) (s * t202 / 2) (-(s * t022) / 2)
        (s * t004) := by
  refine MvPolynomial.funext fun v => ?_
  rw [eval_bracket]
  simp only [cyl4, cyl6, jj, re2, re4, re6, map_add, map_sub, map_neg, map_mul, map_pow, Derivation.leibniz,
    Derivation.leibniz_pow, pderiv_C, pd, pd2, pd6, pd15, smul_eq_mul, nsmul_eq_mul, eval_C, eval_X, map_ofNat]
  simp
  ring

theorem bracket_five (b200 β σ p q r : ℝ) :
    bracket (cyl2 1 2 0 b200 β σ) (X 0 * X 1 * X 2 * (C p * jj + C q * X 0 ^ 2 + C r * re2 1 2)) =
      cyl6 1 2 0 (-(β * p)) (6 * β * p - 3 * β * q) (10 * β * q - 5 * β * p) (-7 * β * q)
        (-(β * r) / 4) (5 / 2 * β * r - 2 * β * σ * p) (-2 * β * σ * q - 9 / 4 * β * r) (β * p / 2)
        (3 / 2 * β * q - 2 * β * σ * r) (β * r / 4) := by
  refine MvPolynomial.funext fun v => ?_
  rw [eval_bracket]
  simp only [cyl2, cyl6, jj, re2, re4, re6, map_add, map_sub, map_neg, map_mul, map_pow, Derivation.leibniz,
    Derivation.leibniz_pow, pderiv_C, pd, pd2, pd6, pd15, smul_eq_mul, nsmul_eq_mul, eval_C, eval_X, map_ofNat]
  simp
  ring


/-- The effect of the transformations that keep the Hamiltonian even in every component. -/
theorem reduce (b200 β σ s p q r t400 t220 t040 t202 t022 t004 f600 f420 f240 f060 f402 f222 f042 f204 f024 f006 : ℝ)
    {t400' t220' t040' t202' t022' t004' f600' f420' f240' f060' f402' f222' f042' f204' f024' f006' : ℝ}
    (ht400 : t400' = t400 - β * s)
    (ht220 : t220' = t220 + 6 * β * s)
    (ht040 : t040' = t040 - 5 * β * s)
    (ht202 : t202' = t202)
    (ht022 : t022' = t022 - 2 * σ * β * s)
    (ht004 : t004' = t004 + β * s / 2)
    (hf600 : f600' = f600 + (-(s * t202) - β * p))
    (hf420 : f420' = f420 + (6 * s * t202 - 3 * s * t022 + 3 * β * σ * s ^ 2 + 6 * β * p - 3 * β * q))
    (hf240 : f240' = f240 + (10 * s * t022 - 5 * s * t202 - 10 * β * σ * s ^ 2 + 10 * β * q - 5 * β * p))
    (hf060 : f060' = f060 + (-7 * s * t022 + 7 * β * σ * s ^ 2 - 7 * β * q))
    (hf402 : f402' = f402 + (-(s * t004) - β * s ^ 2 / 4 - β * r / 4))
    (hf222 : f222' = f222 + (6 * s * t004 - s * t220 - 3 / 2 * β * s ^ 2 + 5 / 2 * β * r - 2 * β * σ * p))
    (hf042 : f042' = f042 + (-5 * s * t004 - 2 * s * t040 + 15 / 4 * β * s ^ 2 - 2 * β * σ * q - 9 / 4 * β * r))
    (hf204 : f204' = f204 + (s * t202 / 2 + β * p / 2))
    (hf024 : f024' = f024 + (-(s * t022) / 2 + β * σ * s ^ 2 / 2 + 3 / 2 * β * q - 2 * β * σ * r))
    (hf006 : f006' = f006 + (s * t004 + β * s ^ 2 / 4 + β * r / 4)) :
    Transforms (C s * (X 0 * X 1 * X 2)) (X 0 * X 1 * X 2 * (C p * jj + C q * X 0 ^ 2 + C r * re2 1 2))
      (cyl2 1 2 0 b200 β σ) (cyl4 1 2 0 t400 t220 t040 t202 t022 t004)
      (cyl6 1 2 0 f600 f420 f240 f060 f402 f222 f042 f204 f024 f006) (cyl4 1 2 0 t400' t220' t040' t202' t022' t004')
      (cyl6 1 2 0 f600' f420' f240' f060' f402' f222' f042' f204' f024' f006') := by
  unfold Transforms
  rw [bracket_rotor, bracket_quartic, bracket_quartic, bracket_five, ht400, ht220, ht040, ht202, ht022, ht004, hf600, hf420, hf240, hf060, hf402, hf222, hf042, hf204, hf024, hf006]
  constructor
  · refine MvPolynomial.funext fun v => ?_
    simp only [cyl4, map_add, map_sub, map_neg, map_mul, map_pow, eval_C, map_ofNat]
    ring
  · refine MvPolynomial.funext fun v => ?_
    simp only [cyl6, map_add, map_sub, map_neg, map_mul, map_pow, eval_C, map_ofNat]
    ring

theorem hom_X (i : Fin 3) : (X i : Poly).IsHomogeneous 1 := isHomogeneous_X ℝ i

theorem hom_sq (i : Fin 3) : (X i ^ 2 : Poly).IsHomogeneous 2 := by simpa using (hom_X i).pow 2

theorem hom_xyz : (X 0 * X 1 * X 2 : Poly).IsHomogeneous 3 := ((hom_X 0).mul (hom_X 1)).mul (hom_X 2)

theorem orthoGen_three (s : ℝ) : OrthoGen 3 (C s * (X 0 * X 1 * X 2)) :=
  ⟨hom_xyz.C_mul s, C s, by rw [expand_C]; ring⟩

theorem orthoGen_five (p q r : ℝ) :
    OrthoGen 5 (X 0 * X 1 * X 2 * (C p * jj + C q * X 0 ^ 2 + C r * re2 1 2)) :=
  ⟨hom_xyz.mul (((((hom_sq 0).add (hom_sq 1)).add (hom_sq 2)).C_mul p |>.add ((hom_sq 0).C_mul q)).add
    (((hom_sq 1).sub (hom_sq 2)).C_mul r)), C p * (X 0 + X 1 + X 2) + C q * X 0 + C r * (X 1 - X 2), by
    simp only [map_add, map_sub, map_mul, expand_C, expand_X, jj, re2]⟩

end Verif
