import Verif.Lemmas.SexticScc

/-! The transformation that removes the odd terms, applied to the Hamiltonian of an asymmetric top. -/

namespace Verif

open MvPolynomial

theorem bracket_add_left (f g s : Poly) : bracket (f + g) s = bracket f s + bracket g s := by
  simp only [bracket, map_add]
  ring

theorem bracket_neg_left (f s : Poly) : bracket (-f) s = -bracket f s := by
  simp only [bracket, map_neg]
  ring

/-- Removing the odd terms of a Hamiltonian: what becomes of the even sextic terms. -/
theorem skew_reduce (B : ℕ → ℝ) (h01 : B 0 ≠ B 1) (h02 : B 0 ≠ B 2) (h12 : B 1 ≠ B 2) (E : ℕ → ℕ → ℝ) (H6 : Poly)
    (a00 a01 a02 a10 a11 a12 a20 a21 a22 d0 d1 d2 p01 p02 p10 p12 p20 p21 q
      d0' d1' d2' p01' p02' p10' p12' p20' p21' q' : ℝ)
    (h6 : HasParts H6 d0 d1 d2 p01 p02 p10 p12 p20 p21 q)
    (hs : ∀ s00 s01 s02 s10 s11 s12 s20 s21 s22 : ℝ,
      s01 = -a01 / (2 * (B 2 - B 1)) → s02 = -a02 / (2 * (B 2 - B 1)) →
      s00 = (-a00 - 2 * (2 * (B 0 - B 2)) * s01 - 2 * (2 * (B 1 - B 0)) * s02) / (3 * (2 * (B 2 - B 1))) →
      s10 = -a10 / (2 * (B 0 - B 2)) → s12 = -a12 / (2 * (B 0 - B 2)) →
      s11 = (-a11 - 2 * (2 * (B 2 - B 1)) * s10 - 2 * (2 * (B 1 - B 0)) * s12) / (3 * (2 * (B 0 - B 2))) →
      s20 = -a20 / (2 * (B 1 - B 0)) → s21 = -a21 / (2 * (B 1 - B 0)) →
      s22 = (-a22 - 2 * (2 * (B 2 - B 1)) * s20 - 2 * (2 * (B 0 - B 2)) * s21) / (3 * (2 * (B 1 - B 0))) →
      d0' = d0 + 1 / 2 * (-a10 * s10 + a20 * s20) ∧
      d1' = d1 + 1 / 2 * (a01 * s01 - a21 * s21) ∧
      d2' = d2 + 1 / 2 * (-a02 * s02 + a12 * s12) ∧
      p01' = p01 + 1 / 2 * (3 / 2 * a00 * s00 - a00 * s01 + a10 * s10 - 3 / 2 * a10 * s11 - 1 / 2 * a11 * s10 - 3 / 2 * a20 * s20 + 1 / 2 * a20 * s21 + 3 / 2 * a21 * s20) ∧
      p02' = p02 + 1 / 2 * (-3 / 2 * a00 * s00 + a00 * s02 + 3 / 2 * a10 * s10 - 1 / 2 * a10 * s12 - 3 / 2 * a12 * s10 - a20 * s20 + 3 / 2 * a20 * s22 + 1 / 2 * a22 * s20) ∧
      p10' = p10 + 1 / 2 * (1 / 2 * a00 * s01 + 3 / 2 * a01 * s00 - a01 * s01 + a11 * s10 - 3 / 2 * a11 * s11 - 3 / 2 * a20 * s21 - 1 / 2 * a21 * s20 + 3 / 2 * a21 * s21) ∧
      p12' = p12 + 1 / 2 * (-3 / 2 * a01 * s01 + 1 / 2 * a01 * s02 + 3 / 2 * a02 * s01 + 3 / 2 * a11 * s11 - a11 * s12 + a21 * s21 - 3 / 2 * a21 * s22 - 1 / 2 * a22 * s21) ∧
      p20' = p20 + 1 / 2 * (-1 / 2 * a00 * s02 - 3 / 2 * a02 * s00 + a02 * s02 + 3 / 2 * a10 * s12 + 1 / 2 * a12 * s10 - 3 / 2 * a12 * s12 - a22 * s20 + 3 / 2 * a22 * s22) ∧
      p21' = p21 + 1 / 2 * (-3 / 2 * a01 * s02 - 1 / 2 * a02 * s01 + 3 / 2 * a02 * s02 + 1 / 2 * a11 * s12 + 3 / 2 * a12 * s11 - a12 * s12 + a22 * s21 - 3 / 2 * a22 * s22) ∧
      q' = q + 1 / 2 * (3 / 2 * a00 * s01 - 3 / 2 * a00 * s02 - 9 / 2 * a01 * s00 + 3 * a01 * s02 + 9 / 2 * a02 * s00 - 3 * a02 * s01 + 9 / 2 * a10 * s11 - 3 * a10 * s12 - 3 / 2 * a11 * s10 + 3 / 2 * a11 * s12 + 3 * a12 * s10 - 9 / 2 * a12 * s11 + 3 * a20 * s21 - 9 / 2 * a20 * s22 - 3 * a21 * s20 + 9 / 2 * a21 * s22 + 3 / 2 * a22 * s20 - 3 / 2 * a22 * s21)) :
    ∃ s t, SkewGen 3 s ∧ SkewGen 5 t ∧ Transforms s t (rotorH B) (quarticH E + oddP a00 a01 a02 a10 a11 a12 a20 a21 a22) H6
      (quarticH E) (sexP d0' d1' d2' p01' p02' p10' p12' p20' p21' q') := by
  obtain ⟨s00, s01, s02, s10, s11, s12, s20, s21, s22, e1, e2, e3, e4, e5, e6, e7, e8, e9, hb⟩ :=
    remove_odd4 B h01 h02 h12 a00 a01 a02 a10 a11 a12 a20 a21 a22
  obtain ⟨r0, r1, r2, r3, r4, r5, r6, r7, r8, r9⟩ := hs s00 s01 s02 s10 s11 s12 s20 s21 s22 e1 e2 e3 e4 e5 e6 e7 e8 e9
  obtain ⟨u, v, w, hp⟩ := (h6.add (bracket_even E s00 s01 s02 s10 s11 s12 s20 s21 s22)).add
    ((bracket_odd a00 a01 a02 a10 a11 a12 a20 a21 a22 s00 s01 s02 s10 s11 s12 s20 s21 s22).mul (1 / 2))
  simp only [add_zero, ← r0, ← r1, ← r2, ← r3, ← r4, ← r5, ← r6, ← r7, ← r8, ← r9] at hp
  obtain ⟨t, ht, hbt⟩ := remove_odd B h01 h02 h12 u v w
  refine ⟨_, t, skewGen_three s00 s01 s02 s10 s11 s12 s20 s21 s22, ht, ?_, ?_⟩
  · rw [hb]; ring
  · have half : (C (1 / 2) : Poly) * 2 = 1 := by
      rw [show (2 : Poly) = C 2 from rfl, ← C_mul]
      norm_num
    rw [hb, hbt, bracket_add_left, bracket_neg_left]
    linear_combination -hp + half * bracket (oddP a00 a01 a02 a10 a11 a12 a20 a21 a22) (genP s00 s01 s02 s10 s11 s12 s20 s21 s22)

/-- The symmetries of `τ`. -/
def TauSymm (τ : T4 ℝ) : Prop := ∀ i j k l, τ j i k l = τ i j k l ∧ τ i j l k = τ i j k l ∧ τ k l i j = τ i j k l

theorem tau_canon {τ : T4 ℝ} (h : TauSymm τ) :
    τ 0 0 1 0 = τ 0 0 0 1 ∧ τ 0 0 2 0 = τ 0 0 0 2 ∧ τ 0 0 2 1 = τ 0 0 1 2 ∧ τ 0 1 0 0 = τ 0 0 0 1 ∧
    τ 0 1 1 0 = τ 0 1 0 1 ∧ τ 0 1 2 0 = τ 0 1 0 2 ∧ τ 0 1 2 1 = τ 0 1 1 2 ∧ τ 0 2 0 0 = τ 0 0 0 2 ∧
    τ 0 2 0 1 = τ 0 1 0 2 ∧ τ 0 2 1 0 = τ 0 1 0 2 ∧ τ 0 2 2 0 = τ 0 2 0 2 ∧ τ 0 2 2 1 = τ 0 2 1 2 ∧
    τ 1 0 0 0 = τ 0 0 0 1 ∧ τ 1 0 0 1 = τ 0 1 0 1 ∧ τ 1 0 0 2 = τ 0 1 0 2 ∧ τ 1 0 1 0 = τ 0 1 0 1 ∧
    τ 1 0 1 1 = τ 0 1 1 1 ∧ τ 1 0 1 2 = τ 0 1 1 2 ∧ τ 1 0 2 0 = τ 0 1 0 2 ∧ τ 1 0 2 1 = τ 0 1 1 2 ∧
    τ 1 0 2 2 = τ 0 1 2 2 ∧ τ 1 1 0 0 = τ 0 0 1 1 ∧ τ 1 1 0 1 = τ 0 1 1 1 ∧ τ 1 1 0 2 = τ 0 2 1 1 ∧
    τ 1 1 1 0 = τ 0 1 1 1 ∧ τ 1 1 2 0 = τ 0 2 1 1 ∧ τ 1 1 2 1 = τ 1 1 1 2 ∧ τ 1 2 0 0 = τ 0 0 1 2 ∧
    τ 1 2 0 1 = τ 0 1 1 2 ∧ τ 1 2 0 2 = τ 0 2 1 2 ∧ τ 1 2 1 0 = τ 0 1 1 2 ∧ τ 1 2 1 1 = τ 1 1 1 2 ∧
    τ 1 2 2 0 = τ 0 2 1 2 ∧ τ 1 2 2 1 = τ 1 2 1 2 ∧ τ 2 0 0 0 = τ 0 0 0 2 ∧ τ 2 0 0 1 = τ 0 1 0 2 ∧
    τ 2 0 0 2 = τ 0 2 0 2 ∧ τ 2 0 1 0 = τ 0 1 0 2 ∧ τ 2 0 1 1 = τ 0 2 1 1 ∧ τ 2 0 1 2 = τ 0 2 1 2 ∧
    τ 2 0 2 0 = τ 0 2 0 2 ∧ τ 2 0 2 1 = τ 0 2 1 2 ∧ τ 2 0 2 2 = τ 0 2 2 2 ∧ τ 2 1 0 0 = τ 0 0 1 2 ∧
    τ 2 1 0 1 = τ 0 1 1 2 ∧ τ 2 1 0 2 = τ 0 2 1 2 ∧ τ 2 1 1 0 = τ 0 1 1 2 ∧ τ 2 1 1 1 = τ 1 1 1 2 ∧
    τ 2 1 1 2 = τ 1 2 1 2 ∧ τ 2 1 2 0 = τ 0 2 1 2 ∧ τ 2 1 2 1 = τ 1 2 1 2 ∧ τ 2 1 2 2 = τ 1 2 2 2 ∧
    τ 2 2 0 0 = τ 0 0 2 2 ∧ τ 2 2 0 1 = τ 0 1 2 2 ∧ τ 2 2 0 2 = τ 0 2 2 2 ∧ τ 2 2 1 0 = τ 0 1 2 2 ∧
    τ 2 2 1 1 = τ 1 1 2 2 ∧ τ 2 2 1 2 = τ 1 2 2 2 ∧ τ 2 2 2 0 = τ 0 2 2 2 ∧ τ 2 2 2 1 = τ 1 2 2 2 :=
  ⟨
    (h 0 0 0 1).2.1, (h 0 0 0 2).2.1, (h 0 0 1 2).2.1, (h 0 0 0 1).2.2, (h 0 1 0 1).2.1, (h 0 1 0 2).2.1,
    (h 0 1 1 2).2.1, (h 0 0 0 2).2.2, (h 0 1 0 2).2.2, ((h 0 2 0 1).2.1).trans (h 0 1 0 2).2.2,
    (h 0 2 0 2).2.1, (h 0 2 1 2).2.1, ((h 0 1 0 0).1).trans (h 0 0 0 1).2.2, (h 0 1 0 1).1, (h 0 1 0 2).1,
    ((h 0 1 1 0).1).trans (h 0 1 0 1).2.1, (h 0 1 1 1).1, (h 0 1 1 2).1, ((h 0 1 2 0).1).trans (h 0 1 0 2).2.1,
    ((h 0 1 2 1).1).trans (h 0 1 1 2).2.1, (h 0 1 2 2).1, (h 0 0 1 1).2.2, (h 0 1 1 1).2.2, (h 0 2 1 1).2.2,
    ((h 1 1 0 1).2.1).trans (h 0 1 1 1).2.2, ((h 1 1 0 2).2.1).trans (h 0 2 1 1).2.2, (h 1 1 1 2).2.1,
    (h 0 0 1 2).2.2, (h 0 1 1 2).2.2, (h 0 2 1 2).2.2, ((h 1 2 0 1).2.1).trans (h 0 1 1 2).2.2,
    (h 1 1 1 2).2.2, ((h 1 2 0 2).2.1).trans (h 0 2 1 2).2.2, (h 1 2 1 2).2.1,
    ((h 0 2 0 0).1).trans (h 0 0 0 2).2.2, ((h 0 2 0 1).1).trans (h 0 1 0 2).2.2, (h 0 2 0 2).1,
    (((h 0 2 1 0).1).trans (h 0 2 0 1).2.1).trans (h 0 1 0 2).2.2, (h 0 2 1 1).1, (h 0 2 1 2).1,
    ((h 0 2 2 0).1).trans (h 0 2 0 2).2.1, ((h 0 2 2 1).1).trans (h 0 2 1 2).2.1, (h 0 2 2 2).1,
    ((h 1 2 0 0).1).trans (h 0 0 1 2).2.2, ((h 1 2 0 1).1).trans (h 0 1 1 2).2.2,
    ((h 1 2 0 2).1).trans (h 0 2 1 2).2.2, (((h 1 2 1 0).1).trans (h 1 2 0 1).2.1).trans (h 0 1 1 2).2.2,
    ((h 1 2 1 1).1).trans (h 1 1 1 2).2.2, (h 1 2 1 2).1,
    (((h 1 2 2 0).1).trans (h 1 2 0 2).2.1).trans (h 0 2 1 2).2.2, ((h 1 2 2 1).1).trans (h 1 2 1 2).2.1,
    (h 1 2 2 2).1, (h 0 0 2 2).2.2, (h 0 1 2 2).2.2, (h 0 2 2 2).2.2, ((h 2 2 0 1).2.1).trans (h 0 1 2 2).2.2,
    (h 1 1 2 2).2.2, (h 1 2 2 2).2.2, ((h 2 2 0 2).2.1).trans (h 0 2 2 2).2.2,
    ((h 2 2 1 2).2.1).trans (h 1 2 2 2).2.2⟩

/-- The even and odd terms of the quartic part. -/
theorem quartic_split (D : RotorData) (hτ : TauSymm D.τ) (E : ℕ → ℕ → ℝ) (h0 : E 0 0 = D.τ 0 0 0 0 / 4)
    (h1 : E 1 1 = D.τ 1 1 1 1 / 4) (h2 : E 2 2 = D.τ 2 2 2 2 / 4) (h01 : E 0 1 + E 1 0 = (D.τ 0 0 1 1 + 2 * D.τ 0 1 0 1) / 2)
    (h02 : E 0 2 + E 2 0 = (D.τ 0 0 2 2 + 2 * D.τ 0 2 0 2) / 2)
    (h12 : E 1 2 + E 2 1 = (D.τ 1 1 2 2 + 2 * D.τ 1 2 1 2) / 2) :
    D.H4 = quarticH E + oddP (D.τ 0 0 1 2 + 2 * D.τ 0 1 0 2) (D.τ 1 1 1 2) (D.τ 1 2 2 2) (D.τ 0 0 0 2)
      (D.τ 0 2 1 1 + 2 * D.τ 0 1 1 2) (D.τ 0 2 2 2) (D.τ 0 0 0 1) (D.τ 0 1 1 1) (D.τ 0 1 2 2 + 2 * D.τ 0 2 1 2) := by
  refine MvPolynomial.funext fun v => ?_
  simp only [RotorData.H4, quarticH, oddP, sum3, map_add, map_mul, map_pow, eval_C, eval_X]
  simp only [Fin.val_zero, Fin.val_one, Fin.val_two, Fin.isValue, tau_canon hτ]
  linear_combination -(v 0 ^ 4) * h0 - v 1 ^ 4 * h1 - v 2 ^ 4 * h2 - v 0 ^ 2 * v 1 ^ 2 * h01 -
    v 0 ^ 2 * v 2 ^ 2 * h02 - v 1 ^ 2 * v 2 ^ 2 * h12

theorem torque_form (D : RotorData) (hτ : TauSymm D.τ) (w : ℕ) : D.torque w =
    cubicP (D.τ w 0 0 0) (D.τ w 1 1 1) (D.τ w 2 2 2) (D.τ w 1 0 0 + 2 * D.τ w 0 1 0) (D.τ w 2 0 0 + 2 * D.τ w 0 2 0)
      (D.τ w 0 1 1 + 2 * D.τ w 1 0 1) (D.τ w 2 1 1 + 2 * D.τ w 1 2 1) (D.τ w 0 2 2 + 2 * D.τ w 2 0 2)
      (D.τ w 1 2 2 + 2 * D.τ w 2 1 2) (2 * (D.τ w 0 1 2 + D.τ w 1 2 0 + D.τ w 2 0 1)) := by
  have h := fun i j k => (hτ w i j k).2.1
  refine MvPolynomial.funext fun v => ?_
  simp only [RotorData.torque, cubicP, sum3, map_add, map_mul, map_pow, eval_C, eval_X]
  simp only [Fin.val_zero, Fin.val_one, Fin.val_two, Fin.isValue]
  rw [h 0 1 0, h 0 2 0, h 1 2 1, h 1 1 0, h 2 2 0, h 2 2 1, h 0 2 1, h 1 2 0, h 2 1 0]
  ring

/-- The even terms of the sum of the squares of cubic forms. -/
theorem squares_parts {ι : Type} (s : Finset ι) (c : ι → ℝ) (f : ι → Poly)
    (k300 k030 k003 k210 k201 k120 k021 k102 k012 k111 : ι → ℝ)
    (hf : ∀ i ∈ s, f i = cubicP (k300 i) (k030 i) (k003 i) (k210 i) (k201 i) (k120 i) (k021 i) (k102 i) (k012 i) (2 * k111 i)) :
    HasParts (∑ i ∈ s, C (c i) * f i ^ 2) (∑ i ∈ s, c i * k300 i ^ 2) (∑ i ∈ s, c i * k030 i ^ 2) (∑ i ∈ s, c i * k003 i ^ 2)
      (1 / 2 * ∑ i ∈ s, c i * (k210 i ^ 2 + 2 * k300 i * k120 i)) (1 / 2 * ∑ i ∈ s, c i * (k201 i ^ 2 + 2 * k300 i * k102 i))
      (1 / 2 * ∑ i ∈ s, c i * (k120 i ^ 2 + 2 * k030 i * k210 i)) (1 / 2 * ∑ i ∈ s, c i * (k021 i ^ 2 + 2 * k030 i * k012 i))
      (1 / 2 * ∑ i ∈ s, c i * (k102 i ^ 2 + 2 * k003 i * k201 i)) (1 / 2 * ∑ i ∈ s, c i * (k012 i ^ 2 + 2 * k003 i * k021 i))
      (∑ i ∈ s, c i * (2 * k111 i ^ 2 + k120 i * k102 i + k012 i * k210 i + k201 i * k021 i)) := by
  have h := HasParts.sum s (fun i hi => by
    have := (sq_cubic (k300 i) (k030 i) (k003 i) (k210 i) (k201 i) (k120 i) (k021 i) (k102 i) (k012 i) (2 * k111 i)).mul (c i)
    rw [← hf i hi] at this
    exact this)
  convert h using 1 <;> (try simp only [Finset.mul_sum]) <;>
    exact Finset.sum_congr rfl fun i _ => by ring

/-- The even terms of the cubic sum. -/
theorem cubic_parts (n : ℕ) (k : T3 ℝ) (h12 : ∀ i j l, k i j l = k j i l) (h23 : ∀ i j l, k i j l = k i l j) (f : ℕ → Poly)
    (c : Mat ℝ) (hf : ∀ v < n, f v = formP (c v 0) (c v 2) (c v 5) (c v 1) (c v 3) (c v 4)) :
    HasParts (∑ i ∈ Finset.range n, ∑ j ∈ Finset.range n, ∑ l ∈ Finset.range n, C (k i j l) * (f i * f j * f l))
      (tri n k (c · 0) (c · 0) (c · 0)) (tri n k (c · 2) (c · 2) (c · 2)) (tri n k (c · 5) (c · 5) (c · 5))
      (3 / 2 * (tri n k (c · 2) (c · 0) (c · 0) + 4 * tri n k (c · 1) (c · 1) (c · 0)))
      (3 / 2 * (tri n k (c · 5) (c · 0) (c · 0) + 4 * tri n k (c · 3) (c · 3) (c · 0)))
      (3 / 2 * (tri n k (c · 0) (c · 2) (c · 2) + 4 * tri n k (c · 1) (c · 1) (c · 2)))
      (3 / 2 * (tri n k (c · 5) (c · 2) (c · 2) + 4 * tri n k (c · 4) (c · 4) (c · 2)))
      (3 / 2 * (tri n k (c · 0) (c · 5) (c · 5) + 4 * tri n k (c · 3) (c · 3) (c · 5)))
      (3 / 2 * (tri n k (c · 2) (c · 5) (c · 5) + 4 * tri n k (c · 4) (c · 4) (c · 5)))
      (3 * (tri n k (c · 0) (c · 2) (c · 5) + 2 * tri n k (c · 0) (c · 4) (c · 4) + 2 * tri n k (c · 2) (c · 3) (c · 3) +
        2 * tri n k (c · 5) (c · 1) (c · 1) + 8 * tri n k (c · 4) (c · 3) (c · 1))) := by
  have h := HasParts.sum (Finset.range n) fun i hi => HasParts.sum (Finset.range n) fun j hj =>
    HasParts.sum (Finset.range n) fun l hl => by
      have := (mul_quad (c i 0) (c i 2) (c i 5) (c i 1) (c i 3) (c i 4) (c j 0) (c j 2) (c j 5) (c j 1) (c j 3) (c j 4)
        (c l 0) (c l 2) (c l 5) (c l 1) (c l 3) (c l 4)).mul (k i j l)
      rw [← hf i (Finset.mem_range.1 hi), ← hf j (Finset.mem_range.1 hj), ← hf l (Finset.mem_range.1 hl)] at this
      exact this
  have s12 := tri_swap12 n k h12
  have s23 := tri_swap23 n k h23
  have pair : ∀ x y u : ℕ → ℝ, 3 / 2 * (tri n k y x x + 4 * tri n k u u x) =
      ∑ i ∈ Finset.range n, ∑ j ∈ Finset.range n, ∑ l ∈ Finset.range n, k i j l *
        (1 / 2 * x i * x j * y l + 2 * x i * u j * u l + 1 / 2 * x i * y j * x l + 2 * u i * x j * u l + 2 * u i * u j * x l +
          1 / 2 * y i * x j * x l) := by
    intro x y u
    have e : ∑ i ∈ Finset.range n, ∑ j ∈ Finset.range n, ∑ l ∈ Finset.range n, k i j l *
        (1 / 2 * x i * x j * y l + 2 * x i * u j * u l + 1 / 2 * x i * y j * x l + 2 * u i * x j * u l + 2 * u i * u j * x l +
          1 / 2 * y i * x j * x l) = 1 / 2 * tri n k x x y + 2 * tri n k x u u + 1 / 2 * tri n k x y x + 2 * tri n k u x u +
          2 * tri n k u u x + 1 / 2 * tri n k y x x := by
      simp only [tri, Finset.mul_sum, ← Finset.sum_add_distrib]
      exact Finset.sum_congr rfl fun i _ => Finset.sum_congr rfl fun j _ => Finset.sum_congr rfl fun l _ => by ring
    rw [e, s23 x x y, s12 x y x, s12 x u u, s23 u x u]
    ring
  have triple : ∀ xx yy zz xy xz yz : ℕ → ℝ, 3 * (tri n k xx yy zz + 2 * tri n k xx yz yz + 2 * tri n k yy xz xz +
        2 * tri n k zz xy xy + 8 * tri n k yz xz xy) =
      ∑ i ∈ Finset.range n, ∑ j ∈ Finset.range n, ∑ l ∈ Finset.range n, k i j l *
        (1 / 2 * xx i * yy j * zz l + 2 * xx i * yz j * yz l + 1 / 2 * xx i * zz j * yy l + 2 * xy i * xy j * zz l +
          4 * xy i * xz j * yz l + 4 * xy i * yz j * xz l + 2 * xy i * zz j * xy l + 4 * xz i * xy j * yz l +
          2 * xz i * xz j * yy l + 2 * xz i * yy j * xz l + 4 * xz i * yz j * xy l + 1 / 2 * yy i * xx j * zz l +
          2 * yy i * xz j * xz l + 1 / 2 * yy i * zz j * xx l + 2 * yz i * xx j * yz l + 4 * yz i * xy j * xz l +
          4 * yz i * xz j * xy l + 2 * yz i * yz j * xx l + 1 / 2 * zz i * xx j * yy l + 2 * zz i * xy j * xy l +
          1 / 2 * zz i * yy j * xx l) := by
    intro xx yy zz xy xz yz
    have e : ∑ i ∈ Finset.range n, ∑ j ∈ Finset.range n, ∑ l ∈ Finset.range n, k i j l *
        (1 / 2 * xx i * yy j * zz l + 2 * xx i * yz j * yz l + 1 / 2 * xx i * zz j * yy l + 2 * xy i * xy j * zz l +
          4 * xy i * xz j * yz l + 4 * xy i * yz j * xz l + 2 * xy i * zz j * xy l + 4 * xz i * xy j * yz l +
          2 * xz i * xz j * yy l + 2 * xz i * yy j * xz l + 4 * xz i * yz j * xy l + 1 / 2 * yy i * xx j * zz l +
          2 * yy i * xz j * xz l + 1 / 2 * yy i * zz j * xx l + 2 * yz i * xx j * yz l + 4 * yz i * xy j * xz l +
          4 * yz i * xz j * xy l + 2 * yz i * yz j * xx l + 1 / 2 * zz i * xx j * yy l + 2 * zz i * xy j * xy l +
          1 / 2 * zz i * yy j * xx l) = 1 / 2 * tri n k xx yy zz + 2 * tri n k xx yz yz + 1 / 2 * tri n k xx zz yy + 2 * tri n k xy xy zz +
        4 * tri n k xy xz yz + 4 * tri n k xy yz xz + 2 * tri n k xy zz xy + 4 * tri n k xz xy yz +
        2 * tri n k xz xz yy + 2 * tri n k xz yy xz + 4 * tri n k xz yz xy + 1 / 2 * tri n k yy xx zz +
        2 * tri n k yy xz xz + 1 / 2 * tri n k yy zz xx + 2 * tri n k yz xx yz + 4 * tri n k yz xy xz +
        4 * tri n k yz xz xy + 2 * tri n k yz yz xx + 1 / 2 * tri n k zz xx yy + 2 * tri n k zz xy xy +
        1 / 2 * tri n k zz yy xx := by
      simp only [tri, Finset.mul_sum, ← Finset.sum_add_distrib]
      exact Finset.sum_congr rfl fun i _ => Finset.sum_congr rfl fun j _ => Finset.sum_congr rfl fun l _ => by ring
    rw [e, show tri n k xx zz yy = tri n k xx yy zz from (s23 xx zz yy),
      show tri n k xy xy zz = tri n k zz xy xy from ((s23 xy xy zz).trans (s12 xy zz xy)),
      show tri n k xy xz yz = tri n k yz xz xy from (((s12 xy xz yz).trans (s23 xz xy yz)).trans (s12 xz yz xy)),
      show tri n k xy yz xz = tri n k yz xz xy from ((s12 xy yz xz).trans (s23 yz xy xz)),
      show tri n k xy zz xy = tri n k zz xy xy from (s12 xy zz xy),
      show tri n k xz xy yz = tri n k yz xz xy from ((s23 xz xy yz).trans (s12 xz yz xy)),
      show tri n k xz xz yy = tri n k yy xz xz from ((s23 xz xz yy).trans (s12 xz yy xz)),
      show tri n k xz yy xz = tri n k yy xz xz from (s12 xz yy xz),
      show tri n k xz yz xy = tri n k yz xz xy from (s12 xz yz xy),
      show tri n k yy xx zz = tri n k xx yy zz from (s12 yy xx zz),
      show tri n k yy zz xx = tri n k xx yy zz from ((s23 yy zz xx).trans (s12 yy xx zz)),
      show tri n k yz xx yz = tri n k xx yz yz from (s12 yz xx yz),
      show tri n k yz xy xz = tri n k yz xz xy from (s23 yz xy xz),
      show tri n k yz yz xx = tri n k xx yz yz from ((s23 yz yz xx).trans (s12 yz xx yz)),
      show tri n k zz xx yy = tri n k xx yy zz from ((s12 zz xx yy).trans (s23 xx zz yy)),
      show tri n k zz yy xx = tri n k xx yy zz from (((s12 zz yy xx).trans (s23 yy zz xx)).trans (s12 yy xx zz))]
    ring
  convert h using 1
  · exact Finset.sum_congr rfl fun i _ => Finset.sum_congr rfl fun j _ => Finset.sum_congr rfl fun l _ => by ring
  · exact Finset.sum_congr rfl fun i _ => Finset.sum_congr rfl fun j _ => Finset.sum_congr rfl fun l _ => by ring
  · exact Finset.sum_congr rfl fun i _ => Finset.sum_congr rfl fun j _ => Finset.sum_congr rfl fun l _ => by ring
  · exact pair (c · 0) (c · 2) (c · 1)
  · exact pair (c · 0) (c · 5) (c · 3)
  · rw [pair (c · 2) (c · 0) (c · 1)]
    exact Finset.sum_congr rfl fun i _ => Finset.sum_congr rfl fun j _ => Finset.sum_congr rfl fun l _ => by ring
  · exact pair (c · 2) (c · 5) (c · 4)
  · rw [pair (c · 5) (c · 0) (c · 3)]
    exact Finset.sum_congr rfl fun i _ => Finset.sum_congr rfl fun j _ => Finset.sum_congr rfl fun l _ => by ring
  · rw [pair (c · 5) (c · 2) (c · 4)]
    exact Finset.sum_congr rfl fun i _ => Finset.sum_congr rfl fun j _ => Finset.sum_congr rfl fun l _ => by ring
  · exact triple (c · 0) (c · 2) (c · 5) (c · 1) (c · 3) (c · 4)

end Verif
