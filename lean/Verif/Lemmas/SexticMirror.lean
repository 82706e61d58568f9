import Verif.Lemmas.SexticEnd
import Verif.Spec.Symmetry

/-! The sextic coefficient tensor of molecules with a plane of symmetry, and what an axis of symmetry means for the
coefficients. -/

namespace Verif

open MvPolynomial

theorem bracket_even_y (t : ℕ → ℕ → ℝ) (s10 s11 s12 : ℝ) : ∃ v : Fin 6 → ℝ,
    bracket (quarticH t) (genP 0 0 0 s10 s11 s12 0 0 0) = X 0 * X 2 * quadP v :=
  ⟨![ 4 * s10 * t 0 0 - 2 * s10 * t 0 2 - 2 * s10 * t 2 0,
      -8 * s10 * t 1 1 + 4 * s10 * t 1 2 + 4 * s10 * t 2 1 + 6 * s11 * t 0 1 + 6 * s11 * t 1 0 - 6 * s11 * t 1 2 - 6 * s11 * t 2 1 - 4 * s12 * t 0 1 - 4 * s12 * t 1 0 + 8 * s12 * t 1 1,
      2 * s12 * t 0 2 + 2 * s12 * t 2 0 - 4 * s12 * t 2 2,
      -2 * s10 * t 0 1 + 4 * s10 * t 0 2 - 2 * s10 * t 1 0 - 2 * s10 * t 1 2 + 4 * s10 * t 2 0 - 2 * s10 * t 2 1 + 12 * s11 * t 0 0 - 6 * s11 * t 0 2 - 6 * s11 * t 2 0 - 8 * s12 * t 0 0 + 4 * s12 * t 0 1 + 4 * s12 * t 1 0,
      2 * s10 * t 0 2 + 2 * s10 * t 2 0 - 4 * s10 * t 2 2 + 4 * s12 * t 0 0 - 2 * s12 * t 0 2 - 2 * s12 * t 2 0,
      -4 * s10 * t 1 2 - 4 * s10 * t 2 1 + 8 * s10 * t 2 2 + 6 * s11 * t 0 2 + 6 * s11 * t 2 0 - 12 * s11 * t 2 2 + 2 * s12 * t 0 1 - 4 * s12 * t 0 2 + 2 * s12 * t 1 0 + 2 * s12 * t 1 2 - 4 * s12 * t 2 0 + 2 * s12 * t 2 1], by
    refine MvPolynomial.funext fun v => ?_
    rw [eval_bracket]
    simp only [quarticH, sum3, genP, quadP, map_add, map_mul, map_pow, Derivation.leibniz, Derivation.leibniz_pow,
      pderiv_C, pd, smul_eq_mul, nsmul_eq_mul, eval_C, eval_X]
    simp
    ring⟩

theorem bracket_odd_y (a10 a11 a12 s10 s11 s12 : ℝ) :
    bracket (oddP 0 0 0 a10 a11 a12 0 0 0) (genP 0 0 0 s10 s11 s12 0 0 0) = sexP
      (-a10 * s10) 0 (a12 * s12) (a10 * s10 - 3 / 2 * a10 * s11 - 1 / 2 * a11 * s10)
      (3 / 2 * a10 * s10 - 1 / 2 * a10 * s12 - 3 / 2 * a12 * s10) (a11 * s10 - 3 / 2 * a11 * s11)
      (3 / 2 * a11 * s11 - a11 * s12) (3 / 2 * a10 * s12 + 1 / 2 * a12 * s10 - 3 / 2 * a12 * s12)
      (1 / 2 * a11 * s12 + 3 / 2 * a12 * s11 - a12 * s12)
      (9 / 2 * a10 * s11 - 3 * a10 * s12 - 3 / 2 * a11 * s10 + 3 / 2 * a11 * s12 + 3 * a12 * s10 - 9 / 2 * a12 * s11) := by
  refine MvPolynomial.funext fun v => ?_
  rw [eval_bracket]
  simp only [oddP, genP, sexP, map_add, map_mul, map_pow, Derivation.leibniz, Derivation.leibniz_pow, pderiv_C, pd,
    smul_eq_mul, nsmul_eq_mul, eval_C, eval_X]
  simp
  ring

/-- Without the terms odd in `y` only the constants `B 0` and `B 2` need differ. -/
theorem remove_odd_y (B : ℕ → ℝ) (h02 : B 0 ≠ B 2) (v : Fin 6 → ℝ) :
    ∃ t, SkewGen 5 t ∧ bracket (rotorH B) t = -(X 0 * X 2 * quadP v) := by
  obtain ⟨a, ha⟩ : ∃ a, a = 2 * (B 2 - B 1) := ⟨_, rfl⟩
  obtain ⟨b, hb⟩ : ∃ b, b = 2 * (B 0 - B 2) := ⟨_, rfl⟩
  obtain ⟨c, hc⟩ : ∃ c, c = 2 * (B 1 - B 0) := ⟨_, rfl⟩
  have hb0 : b ≠ 0 := by rw [hb]; exact mul_ne_zero two_ne_zero (sub_ne_zero.2 h02)
  obtain ⟨y0, h0⟩ : ∃ y, b * y = -v 0 := ⟨-v 0 / b, by field_simp⟩
  obtain ⟨y2, h2⟩ : ∃ y, b * y = -v 2 := ⟨-v 2 / b, by field_simp⟩
  obtain ⟨y4, h4⟩ : ∃ y, b * y = -v 4 := ⟨-v 4 / b, by field_simp⟩
  obtain ⟨y3, h3⟩ : ∃ y, b * y = (-v 3 - 4 * a * y0 - 2 * c * y4) / 3 := ⟨(-v 3 - 4 * a * y0 - 2 * c * y4) / 3 / b, by field_simp⟩
  obtain ⟨y5, h5⟩ : ∃ y, b * y = (-v 5 - 2 * a * y4 - 4 * c * y2) / 3 := ⟨(-v 5 - 2 * a * y4 - 4 * c * y2) / 3 / b, by field_simp⟩
  obtain ⟨y1, h1⟩ : ∃ y, b * y = (-v 1 - 2 * a * y3 - 2 * c * y5) / 5 := ⟨(-v 1 - 2 * a * y3 - 2 * c * y5) / 5 / b, by field_simp⟩
  refine ⟨_, skewGen_five 0 ![y0, y1, y2, y3, y4, y5] 0, ?_⟩
  rw [bracket_gen5, ← ha, ← hb, ← hc]
  have e : ∀ u v w v' : Fin 6 → ℝ, (∀ i, u i = 0) → (∀ i, w i = 0) → (∀ i, v i = -v' i) →
      (X 1 * X 2 * quadP u + X 0 * X 2 * quadP v + X 0 * X 1 * quadP w : Poly) = -(X 0 * X 2 * quadP v') := by
    intro u v w v' hu hw hv
    simp only [quadP, hu, hw, hv, map_neg, map_zero]
    ring
  refine e _ _ _ _ ?_ ?_ ?_
  · intro i; fin_cases i <;> simp
  · intro i; fin_cases i <;> simp
  · intro i; fin_cases i <;> simp <;> linarith

/-- Removing the odd terms of a Hamiltonian with the plane of symmetry `y = 0`. -/
theorem mirror_reduce (B : ℕ → ℝ) (h02 : B 0 ≠ B 2) (E : ℕ → ℕ → ℝ) (H6 : Poly)
    (a10 a11 a12 d0 d1 d2 p01 p02 p10 p12 p20 p21 q d0' d1' d2' p01' p02' p10' p12' p20' p21' q' : ℝ)
    (h6 : ∃ v, H6 = sexP d0 d1 d2 p01 p02 p10 p12 p20 p21 q + X 0 * X 2 * quadP v)
    (hs : ∀ s10 s11 s12 : ℝ, s10 = -a10 / (2 * (B 0 - B 2)) → s12 = -a12 / (2 * (B 0 - B 2)) →
      s11 = (-a11 - 2 * (2 * (B 2 - B 1)) * s10 - 2 * (2 * (B 1 - B 0)) * s12) / (3 * (2 * (B 0 - B 2))) →
      d0' = d0 + 1 / 2 * (-a10 * s10) ∧ d1' = d1 ∧ d2' = d2 + 1 / 2 * (a12 * s12) ∧
      p01' = p01 + 1 / 2 * (a10 * s10 - 3 / 2 * a10 * s11 - 1 / 2 * a11 * s10) ∧
      p02' = p02 + 1 / 2 * (3 / 2 * a10 * s10 - 1 / 2 * a10 * s12 - 3 / 2 * a12 * s10) ∧
      p10' = p10 + 1 / 2 * (a11 * s10 - 3 / 2 * a11 * s11) ∧ p12' = p12 + 1 / 2 * (3 / 2 * a11 * s11 - a11 * s12) ∧
      p20' = p20 + 1 / 2 * (3 / 2 * a10 * s12 + 1 / 2 * a12 * s10 - 3 / 2 * a12 * s12) ∧
      p21' = p21 + 1 / 2 * (1 / 2 * a11 * s12 + 3 / 2 * a12 * s11 - a12 * s12) ∧
      q' = q + 1 / 2 * (9 / 2 * a10 * s11 - 3 * a10 * s12 - 3 / 2 * a11 * s10 + 3 / 2 * a11 * s12 + 3 * a12 * s10 -
        9 / 2 * a12 * s11)) :
    ∃ s t, SkewGen 3 s ∧ SkewGen 5 t ∧ Transforms s t (rotorH B) (quarticH E + oddP 0 0 0 a10 a11 a12 0 0 0) H6
      (quarticH E) (sexP d0' d1' d2' p01' p02' p10' p12' p20' p21' q') := by
  have hb0 : B 0 - B 2 ≠ 0 := sub_ne_zero.2 h02
  obtain ⟨s10, e10⟩ : ∃ s, s = -a10 / (2 * (B 0 - B 2)) := ⟨_, rfl⟩
  obtain ⟨s12, e12⟩ : ∃ s, s = -a12 / (2 * (B 0 - B 2)) := ⟨_, rfl⟩
  obtain ⟨s11, e11⟩ : ∃ s, s = (-a11 - 2 * (2 * (B 2 - B 1)) * s10 - 2 * (2 * (B 1 - B 0)) * s12) /
    (3 * (2 * (B 0 - B 2))) := ⟨_, rfl⟩
  obtain ⟨r0, r1, r2, r3, r4, r5, r6, r7, r8, r9⟩ := hs s10 s11 s12 e10 e12 e11
  have hb : bracket (rotorH B) (genP 0 0 0 s10 s11 s12 0 0 0) = -oddP 0 0 0 a10 a11 a12 0 0 0 := by
    have ex : -oddP 0 0 0 a10 a11 a12 0 0 0 = oddP 0 0 0 (-a10) (-a11) (-a12) 0 0 0 := by
      simp only [oddP, map_neg, map_zero]
      ring
    rw [bracket_gen, ex]
    congr 1 <;> first | (simp; done) | (simp only [e11, e10, e12]; field_simp; done) | (simp only [e11, e10, e12]; field_simp; ring)
  obtain ⟨v6, h6⟩ := h6
  obtain ⟨v4, h4⟩ := bracket_even_y E s10 s11 s12
  obtain ⟨t, ht, hbt⟩ := remove_odd_y B h02 (v6 + v4)
  refine ⟨_, t, skewGen_three 0 0 0 s10 s11 s12 0 0 0, ht, ?_, ?_⟩
  · rw [hb]; ring
  · rw [hb, hbt, bracket_add_left, bracket_neg_left, h4, bracket_odd_y, h6, r0, r1, r2, r3, r4, r5, r6, r7, r8, r9]
    refine MvPolynomial.funext fun x => ?_
    simp only [sexP, quadP, map_add, map_neg, map_mul, map_pow, eval_C, eval_X, Pi.add_apply]
    ring

/-- A plane of symmetry leaves no sextic terms odd in `y`. -/
theorem Mirror.parts {H6 : Poly} (hm : Mirror H6) {d0 d1 d2 p01 p02 p10 p12 p20 p21 q : ℝ}
    (h6 : HasParts H6 d0 d1 d2 p01 p02 p10 p12 p20 p21 q) :
    ∃ v, H6 = sexP d0 d1 d2 p01 p02 p10 p12 p20 p21 q + X 0 * X 2 * quadP v := by
  obtain ⟨u, v, w, h⟩ := h6
  refine ⟨v, MvPolynomial.funext fun x => ?_⟩
  have e : x = ![x 0, x 1, x 2] := by funext i; fin_cases i <;> rfl
  have := hm (x 0) (x 1) (x 2)
  rw [← e] at this
  rw [h] at this ⊢
  simp [sexP, quadP] at this ⊢
  linarith

/-- A plane of symmetry leaves no quartic terms odd in `y`. -/
theorem Mirror.quartic {E : ℕ → ℕ → ℝ} {a00 a01 a02 a10 a11 a12 a20 a21 a22 : ℝ}
    (hm : Mirror (quarticH E + oddP a00 a01 a02 a10 a11 a12 a20 a21 a22)) :
    a00 = 0 ∧ a01 = 0 ∧ a02 = 0 ∧ a20 = 0 ∧ a21 = 0 ∧ a22 = 0 := by
  have key : ∀ x y z : ℝ, y * z * (a00 * x ^ 2 + a01 * y ^ 2 + a02 * z ^ 2) +
      x * y * (a20 * x ^ 2 + a21 * y ^ 2 + a22 * z ^ 2) = 0 := by
    intro x y z
    have := hm x y z
    simp [quarticH, oddP, sum3] at this
    linarith
  have k1 := key 0 1 1
  have k2 := key 0 1 2
  have k3 := key 1 1 0
  have k4 := key 1 2 0
  have k5 := key 1 1 1
  have k6 := key 1 1 (-1)
  norm_num at k1 k2 k3 k4 k5 k6
  refine ⟨?_, ?_, ?_, ?_, ?_, ?_⟩ <;> linarith

end Verif
