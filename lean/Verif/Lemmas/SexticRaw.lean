import Verif.Lemmas.SexticRed

/-! Even and odd parts of sextic polynomials: the terms even in every component are the ones the constants
describe, the others are removed by a transformation. -/

namespace Verif

open MvPolynomial

/-- A sextic in the squares, with the conventions of `sexticH`: the pair coefficients are those of
`x⁴y²`, `x⁴z²`, `x²y⁴`, `y⁴z²`, `x²z⁴`, `y²z⁴`. -/
noncomputable def sexP (d0 d1 d2 p01 p02 p10 p12 p20 p21 q : ℝ) : Poly :=
  C d0 * X 0 ^ 6 + C d1 * X 1 ^ 6 + C d2 * X 2 ^ 6 +
    C (2 * p01) * (X 0 ^ 4 * X 1 ^ 2) + C (2 * p02) * (X 0 ^ 4 * X 2 ^ 2) + C (2 * p10) * (X 0 ^ 2 * X 1 ^ 4) +
    C (2 * p12) * (X 1 ^ 4 * X 2 ^ 2) + C (2 * p20) * (X 0 ^ 2 * X 2 ^ 4) + C (2 * p21) * (X 1 ^ 2 * X 2 ^ 4) +
    C (2 * q) * (X 0 ^ 2 * X 1 ^ 2 * X 2 ^ 2)

/-- A quadratic in the squares. -/
noncomputable def quadP (u : Fin 6 → ℝ) : Poly :=
  C (u 0) * X 0 ^ 4 + C (u 1) * X 1 ^ 4 + C (u 2) * X 2 ^ 4 + C (u 3) * (X 0 ^ 2 * X 1 ^ 2) +
    C (u 4) * (X 0 ^ 2 * X 2 ^ 2) + C (u 5) * (X 1 ^ 2 * X 2 ^ 2)

/-- A cubic form. -/
noncomputable def cubicP (k300 k030 k003 k210 k201 k120 k021 k102 k012 k111 : ℝ) : Poly :=
  C k300 * X 0 ^ 3 + C k030 * X 1 ^ 3 + C k003 * X 2 ^ 3 + C k210 * (X 0 ^ 2 * X 1) + C k201 * (X 0 ^ 2 * X 2) +
    C k120 * (X 0 * X 1 ^ 2) + C k021 * (X 1 ^ 2 * X 2) + C k102 * (X 0 * X 2 ^ 2) + C k012 * (X 1 * X 2 ^ 2) +
    C k111 * (X 0 * X 1 * X 2)

/-- The quadratic form of a symmetric matrix. -/
noncomputable def formP (cxx cyy czz cxy cxz cyz : ℝ) : Poly :=
  C cxx * X 0 ^ 2 + C cyy * X 1 ^ 2 + C czz * X 2 ^ 2 + C (2 * cxy) * (X 0 * X 1) + C (2 * cxz) * (X 0 * X 2) +
    C (2 * cyz) * (X 1 * X 2)

/-- The quartic terms that are odd in two components. -/
noncomputable def oddP (a00 a01 a02 a10 a11 a12 a20 a21 a22 : ℝ) : Poly :=
  X 1 * X 2 * (C a00 * X 0 ^ 2 + C a01 * X 1 ^ 2 + C a02 * X 2 ^ 2) +
    X 0 * X 2 * (C a10 * X 0 ^ 2 + C a11 * X 1 ^ 2 + C a12 * X 2 ^ 2) +
    X 0 * X 1 * (C a20 * X 0 ^ 2 + C a21 * X 1 ^ 2 + C a22 * X 2 ^ 2)

/-- The generators of order three that remove them. -/
noncomputable def genP (s00 s01 s02 s10 s11 s12 s20 s21 s22 : ℝ) : Poly :=
  X 0 * (C s00 * X 0 ^ 2 + C s01 * X 1 ^ 2 + C s02 * X 2 ^ 2) +
    X 1 * (C s10 * X 0 ^ 2 + C s11 * X 1 ^ 2 + C s12 * X 2 ^ 2) +
    X 2 * (C s20 * X 0 ^ 2 + C s21 * X 1 ^ 2 + C s22 * X 2 ^ 2)

/-- The terms of `f` that are even in every component are given, the others are odd in two components. -/
def HasParts (f : Poly) (d0 d1 d2 p01 p02 p10 p12 p20 p21 q : ℝ) : Prop :=
  ∃ u v w, f = sexP d0 d1 d2 p01 p02 p10 p12 p20 p21 q + X 1 * X 2 * quadP u + X 0 * X 2 * quadP v +
    X 0 * X 1 * quadP w

theorem HasParts.add {f g : Poly} {d0 d1 d2 p01 p02 p10 p12 p20 p21 q d0' d1' d2' p01' p02' p10' p12' p20' p21' q' : ℝ}
    (hf : HasParts f d0 d1 d2 p01 p02 p10 p12 p20 p21 q)
    (hg : HasParts g d0' d1' d2' p01' p02' p10' p12' p20' p21' q') :
    HasParts (f + g) (d0 + d0') (d1 + d1') (d2 + d2') (p01 + p01') (p02 + p02') (p10 + p10') (p12 + p12')
      (p20 + p20') (p21 + p21') (q + q') := by
  obtain ⟨u, v, w, rfl⟩ := hf
  obtain ⟨u', v', w', rfl⟩ := hg
  refine ⟨u + u', v + v', w + w', MvPolynomial.funext fun x => ?_⟩
  simp [sexP, quadP]
  ring

theorem HasParts.mul {f : Poly} {d0 d1 d2 p01 p02 p10 p12 p20 p21 q : ℝ} (c : ℝ)
    (hf : HasParts f d0 d1 d2 p01 p02 p10 p12 p20 p21 q) :
    HasParts (C c * f) (c * d0) (c * d1) (c * d2) (c * p01) (c * p02) (c * p10) (c * p12) (c * p20) (c * p21) (c * q) := by
  obtain ⟨u, v, w, rfl⟩ := hf
  refine ⟨c • u, c • v, c • w, MvPolynomial.funext fun x => ?_⟩
  simp [sexP, quadP]
  ring

theorem HasParts.zero : HasParts 0 0 0 0 0 0 0 0 0 0 0 :=
  ⟨0, 0, 0, MvPolynomial.funext fun x => by simp [sexP, quadP]⟩

theorem HasParts.sum {ι : Type} (s : Finset ι) {f : ι → Poly} {d0 d1 d2 p01 p02 p10 p12 p20 p21 q : ι → ℝ}
    (h : ∀ i ∈ s, HasParts (f i) (d0 i) (d1 i) (d2 i) (p01 i) (p02 i) (p10 i) (p12 i) (p20 i) (p21 i) (q i)) :
    HasParts (∑ i ∈ s, f i) (∑ i ∈ s, d0 i) (∑ i ∈ s, d1 i) (∑ i ∈ s, d2 i) (∑ i ∈ s, p01 i) (∑ i ∈ s, p02 i)
      (∑ i ∈ s, p10 i) (∑ i ∈ s, p12 i) (∑ i ∈ s, p20 i) (∑ i ∈ s, p21 i) (∑ i ∈ s, q i) := by
  classical
  induction s using Finset.induction_on with
  | empty => simpa using HasParts.zero
  | insert a s ha ih =>
    simp only [Finset.sum_insert ha]
    exact (h a (by simp)).add (ih fun i hi => h i (by simp [hi]))

theorem sexticH_eq (φ : ℕ → ℕ → ℕ → ℝ) : sexticH φ = sexP (φ 0 0 0) (φ 1 1 1) (φ 2 2 2) (φ 1 0 0) (φ 2 0 0) (φ 0 1 1)
    (φ 2 1 1) (φ 0 2 2) (φ 1 2 2) (φ 0 1 2) := by
  refine MvPolynomial.funext fun v => ?_
  simp only [sexticH, sexP, sum3, map_add, map_mul, map_pow, eval_C, eval_X]
  simp
  ring

/-- The square of a cubic form. -/
theorem sq_cubic (k300 k030 k003 k210 k201 k120 k021 k102 k012 k111 : ℝ) :
    HasParts (cubicP k300 k030 k003 k210 k201 k120 k021 k102 k012 k111 ^ 2)
      (k300 * k300)
      (k030 * k030)
      (k003 * k003)
      (k120 * k300 + 1 / 2 * k210 * k210)
      (k102 * k300 + 1 / 2 * k201 * k201)
      (k030 * k210 + 1 / 2 * k120 * k120)
      (k012 * k030 + 1 / 2 * k021 * k021)
      (k003 * k201 + 1 / 2 * k102 * k102)
      (k003 * k021 + 1 / 2 * k012 * k012)
      (k012 * k210 + k021 * k201 + k102 * k120 + 1 / 2 * k111 * k111) :=
  ⟨![ 2 * k111 * k300 + 2 * k201 * k210,
      2 * k021 * k030,
      2 * k003 * k012,
      2 * k021 * k210 + 2 * k030 * k201 + 2 * k111 * k120,
      2 * k003 * k210 + 2 * k012 * k201 + 2 * k102 * k111,
      2 * k003 * k030 + 2 * k012 * k021],
    ![ 2 * k201 * k300,
      2 * k021 * k120 + 2 * k030 * k111,
      2 * k003 * k102,
      2 * k021 * k300 + 2 * k111 * k210 + 2 * k120 * k201,
      2 * k003 * k300 + 2 * k102 * k201,
      2 * k003 * k120 + 2 * k012 * k111 + 2 * k021 * k102],
    ![ 2 * k210 * k300,
      2 * k030 * k120,
      2 * k003 * k111 + 2 * k012 * k102,
      2 * k030 * k300 + 2 * k120 * k210,
      2 * k012 * k300 + 2 * k102 * k210 + 2 * k111 * k201,
      2 * k012 * k120 + 2 * k021 * k111 + 2 * k030 * k102], by
    refine MvPolynomial.funext fun v => ?_
    simp [cubicP, sexP, quadP]
    ring⟩

/-- The product of three quadratic forms. -/
theorem mul_quad (axx ayy azz axy axz ayz bxx byy bzz bxy bxz byz cxx cyy czz cxy cxz cyz : ℝ) :
    HasParts (formP axx ayy azz axy axz ayz * formP bxx byy bzz bxy bxz byz * formP cxx cyy czz cxy cxz cyz)
      (axx * bxx * cxx)
      (ayy * byy * cyy)
      (azz * bzz * czz)
      (1 / 2 * axx * bxx * cyy + 2 * axx * bxy * cxy + 1 / 2 * axx * byy * cxx + 2 * axy * bxx * cxy + 2 * axy * bxy * cxx + 1 / 2 * ayy * bxx * cxx)
      (1 / 2 * axx * bxx * czz + 2 * axx * bxz * cxz + 1 / 2 * axx * bzz * cxx + 2 * axz * bxx * cxz + 2 * axz * bxz * cxx + 1 / 2 * azz * bxx * cxx)
      (1 / 2 * axx * byy * cyy + 2 * axy * bxy * cyy + 2 * axy * byy * cxy + 1 / 2 * ayy * bxx * cyy + 2 * ayy * bxy * cxy + 1 / 2 * ayy * byy * cxx)
      (1 / 2 * ayy * byy * czz + 2 * ayy * byz * cyz + 1 / 2 * ayy * bzz * cyy + 2 * ayz * byy * cyz + 2 * ayz * byz * cyy + 1 / 2 * azz * byy * cyy)
      (1 / 2 * axx * bzz * czz + 2 * axz * bxz * czz + 2 * axz * bzz * cxz + 1 / 2 * azz * bxx * czz + 2 * azz * bxz * cxz + 1 / 2 * azz * bzz * cxx)
      (1 / 2 * ayy * bzz * czz + 2 * ayz * byz * czz + 2 * ayz * bzz * cyz + 1 / 2 * azz * byy * czz + 2 * azz * byz * cyz + 1 / 2 * azz * bzz * cyy)
      (1 / 2 * axx * byy * czz + 2 * axx * byz * cyz + 1 / 2 * axx * bzz * cyy + 2 * axy * bxy * czz + 4 * axy * bxz * cyz + 4 * axy * byz * cxz + 2 * axy * bzz * cxy + 4 * axz * bxy * cyz + 2 * axz * bxz * cyy + 2 * axz * byy * cxz + 4 * axz * byz * cxy + 1 / 2 * ayy * bxx * czz + 2 * ayy * bxz * cxz + 1 / 2 * ayy * bzz * cxx + 2 * ayz * bxx * cyz + 4 * ayz * bxy * cxz + 4 * ayz * bxz * cxy + 2 * ayz * byz * cxx + 1 / 2 * azz * bxx * cyy + 2 * azz * bxy * cxy + 1 / 2 * azz * byy * cxx) :=
  ⟨![ 2 * axx * bxx * cyz + 4 * axx * bxy * cxz + 4 * axx * bxz * cxy + 2 * axx * byz * cxx + 4 * axy * bxx * cxz + 4 * axy * bxz * cxx + 4 * axz * bxx * cxy + 4 * axz * bxy * cxx + 2 * ayz * bxx * cxx,
      2 * ayy * byy * cyz + 2 * ayy * byz * cyy + 2 * ayz * byy * cyy,
      2 * ayz * bzz * czz + 2 * azz * byz * czz + 2 * azz * bzz * cyz,
      2 * axx * byy * cyz + 2 * axx * byz * cyy + 8 * axy * bxy * cyz + 4 * axy * bxz * cyy + 4 * axy * byy * cxz + 8 * axy * byz * cxy + 4 * axz * bxy * cyy + 4 * axz * byy * cxy + 2 * ayy * bxx * cyz + 4 * ayy * bxy * cxz + 4 * ayy * bxz * cxy + 2 * ayy * byz * cxx + 2 * ayz * bxx * cyy + 8 * ayz * bxy * cxy + 2 * ayz * byy * cxx,
      2 * axx * byz * czz + 2 * axx * bzz * cyz + 4 * axy * bxz * czz + 4 * axy * bzz * cxz + 4 * axz * bxy * czz + 8 * axz * bxz * cyz + 8 * axz * byz * cxz + 4 * axz * bzz * cxy + 2 * ayz * bxx * czz + 8 * ayz * bxz * cxz + 2 * ayz * bzz * cxx + 2 * azz * bxx * cyz + 4 * azz * bxy * cxz + 4 * azz * bxz * cxy + 2 * azz * byz * cxx,
      2 * ayy * byz * czz + 2 * ayy * bzz * cyz + 2 * ayz * byy * czz + 8 * ayz * byz * cyz + 2 * ayz * bzz * cyy + 2 * azz * byy * cyz + 2 * azz * byz * cyy],
    ![ 2 * axx * bxx * cxz + 2 * axx * bxz * cxx + 2 * axz * bxx * cxx,
      4 * axy * byy * cyz + 4 * axy * byz * cyy + 2 * axz * byy * cyy + 4 * ayy * bxy * cyz + 2 * ayy * bxz * cyy + 2 * ayy * byy * cxz + 4 * ayy * byz * cxy + 4 * ayz * bxy * cyy + 4 * ayz * byy * cxy,
      2 * axz * bzz * czz + 2 * azz * bxz * czz + 2 * azz * bzz * cxz,
      4 * axx * bxy * cyz + 2 * axx * bxz * cyy + 2 * axx * byy * cxz + 4 * axx * byz * cxy + 4 * axy * bxx * cyz + 8 * axy * bxy * cxz + 8 * axy * bxz * cxy + 4 * axy * byz * cxx + 2 * axz * bxx * cyy + 8 * axz * bxy * cxy + 2 * axz * byy * cxx + 2 * ayy * bxx * cxz + 2 * ayy * bxz * cxx + 4 * ayz * bxx * cxy + 4 * ayz * bxy * cxx,
      2 * axx * bxz * czz + 2 * axx * bzz * cxz + 2 * axz * bxx * czz + 8 * axz * bxz * cxz + 2 * axz * bzz * cxx + 2 * azz * bxx * cxz + 2 * azz * bxz * cxx,
      4 * axy * byz * czz + 4 * axy * bzz * cyz + 2 * axz * byy * czz + 8 * axz * byz * cyz + 2 * axz * bzz * cyy + 2 * ayy * bxz * czz + 2 * ayy * bzz * cxz + 4 * ayz * bxy * czz + 8 * ayz * bxz * cyz + 8 * ayz * byz * cxz + 4 * ayz * bzz * cxy + 4 * azz * bxy * cyz + 2 * azz * bxz * cyy + 2 * azz * byy * cxz + 4 * azz * byz * cxy],
    ![ 2 * axx * bxx * cxy + 2 * axx * bxy * cxx + 2 * axy * bxx * cxx,
      2 * axy * byy * cyy + 2 * ayy * bxy * cyy + 2 * ayy * byy * cxy,
      2 * axy * bzz * czz + 4 * axz * byz * czz + 4 * axz * bzz * cyz + 4 * ayz * bxz * czz + 4 * ayz * bzz * cxz + 2 * azz * bxy * czz + 4 * azz * bxz * cyz + 4 * azz * byz * cxz + 2 * azz * bzz * cxy,
      2 * axx * bxy * cyy + 2 * axx * byy * cxy + 2 * axy * bxx * cyy + 8 * axy * bxy * cxy + 2 * axy * byy * cxx + 2 * ayy * bxx * cxy + 2 * ayy * bxy * cxx,
      2 * axx * bxy * czz + 4 * axx * bxz * cyz + 4 * axx * byz * cxz + 2 * axx * bzz * cxy + 2 * axy * bxx * czz + 8 * axy * bxz * cxz + 2 * axy * bzz * cxx + 4 * axz * bxx * cyz + 8 * axz * bxy * cxz + 8 * axz * bxz * cxy + 4 * axz * byz * cxx + 4 * ayz * bxx * cxz + 4 * ayz * bxz * cxx + 2 * azz * bxx * cxy + 2 * azz * bxy * cxx,
      2 * axy * byy * czz + 8 * axy * byz * cyz + 2 * axy * bzz * cyy + 4 * axz * byy * cyz + 4 * axz * byz * cyy + 2 * ayy * bxy * czz + 4 * ayy * bxz * cyz + 4 * ayy * byz * cxz + 2 * ayy * bzz * cxy + 8 * ayz * bxy * cyz + 4 * ayz * bxz * cyy + 4 * ayz * byy * cxz + 8 * ayz * byz * cxy + 2 * azz * bxy * cyy + 2 * azz * byy * cxy], by
    refine MvPolynomial.funext fun v => ?_
    simp [formP, sexP, quadP]
    ring⟩

/-- The bracket of the odd quartic terms with the generator. -/
theorem bracket_odd (a00 a01 a02 a10 a11 a12 a20 a21 a22 s00 s01 s02 s10 s11 s12 s20 s21 s22 : ℝ) :
    HasParts (bracket (oddP a00 a01 a02 a10 a11 a12 a20 a21 a22) (genP s00 s01 s02 s10 s11 s12 s20 s21 s22))
      (-a10 * s10 + a20 * s20)
      (a01 * s01 - a21 * s21)
      (-a02 * s02 + a12 * s12)
      (3 / 2 * a00 * s00 - a00 * s01 + a10 * s10 - 3 / 2 * a10 * s11 - 1 / 2 * a11 * s10 - 3 / 2 * a20 * s20 + 1 / 2 * a20 * s21 + 3 / 2 * a21 * s20)
      (-3 / 2 * a00 * s00 + a00 * s02 + 3 / 2 * a10 * s10 - 1 / 2 * a10 * s12 - 3 / 2 * a12 * s10 - a20 * s20 + 3 / 2 * a20 * s22 + 1 / 2 * a22 * s20)
      (1 / 2 * a00 * s01 + 3 / 2 * a01 * s00 - a01 * s01 + a11 * s10 - 3 / 2 * a11 * s11 - 3 / 2 * a20 * s21 - 1 / 2 * a21 * s20 + 3 / 2 * a21 * s21)
      (-3 / 2 * a01 * s01 + 1 / 2 * a01 * s02 + 3 / 2 * a02 * s01 + 3 / 2 * a11 * s11 - a11 * s12 + a21 * s21 - 3 / 2 * a21 * s22 - 1 / 2 * a22 * s21)
      (-1 / 2 * a00 * s02 - 3 / 2 * a02 * s00 + a02 * s02 + 3 / 2 * a10 * s12 + 1 / 2 * a12 * s10 - 3 / 2 * a12 * s12 - a22 * s20 + 3 / 2 * a22 * s22)
      (-3 / 2 * a01 * s02 - 1 / 2 * a02 * s01 + 3 / 2 * a02 * s02 + 1 / 2 * a11 * s12 + 3 / 2 * a12 * s11 - a12 * s12 + a22 * s21 - 3 / 2 * a22 * s22)
      (3 / 2 * a00 * s01 - 3 / 2 * a00 * s02 - 9 / 2 * a01 * s00 + 3 * a01 * s02 + 9 / 2 * a02 * s00 - 3 * a02 * s01 + 9 / 2 * a10 * s11 - 3 * a10 * s12 - 3 / 2 * a11 * s10 + 3 / 2 * a11 * s12 + 3 * a12 * s10 - 9 / 2 * a12 * s11 + 3 * a20 * s21 - 9 / 2 * a20 * s22 - 3 * a21 * s20 + 9 / 2 * a21 * s22 + 3 / 2 * a22 * s20 - 3 / 2 * a22 * s21) :=
  ⟨![ -a10 * s20 - 2 * a10 * s21 + 2 * a11 * s20 + a20 * s10 + 2 * a20 * s12 - 2 * a22 * s10,
      -a11 * s21 + 3 * a21 * s11 - 2 * a21 * s12,
      2 * a12 * s21 - 3 * a12 * s22 + a22 * s12,
      -3 * a10 * s21 + a11 * s20 + 9 * a20 * s11 - 6 * a20 * s12 - 5 * a21 * s10 + 6 * a21 * s12 + 4 * a22 * s10 - 6 * a22 * s11,
      6 * a10 * s21 - 9 * a10 * s22 - 4 * a11 * s20 + 6 * a11 * s22 + 5 * a12 * s20 - 6 * a12 * s21 + 3 * a20 * s12 - a22 * s10,
      2 * a11 * s21 - 3 * a11 * s22 - a12 * s21 + a21 * s12 + 3 * a22 * s11 - 2 * a22 * s12],
    ![ a00 * s20 - 3 * a20 * s00 + 2 * a20 * s02,
      -2 * a00 * s21 + 2 * a01 * s20 + a01 * s21 - a21 * s01 - 2 * a21 * s02 + 2 * a22 * s01,
      -2 * a02 * s20 + 3 * a02 * s22 - a22 * s02,
      -a00 * s21 + 3 * a01 * s20 + 5 * a20 * s01 - 6 * a20 * s02 - 9 * a21 * s00 + 6 * a21 * s02 + 6 * a22 * s00 - 4 * a22 * s01,
      -2 * a00 * s20 + 3 * a00 * s22 + a02 * s20 - a20 * s02 - 3 * a22 * s00 + 2 * a22 * s02,
      4 * a00 * s21 - 6 * a00 * s22 - 6 * a01 * s20 + 9 * a01 * s22 + 6 * a02 * s20 - 5 * a02 * s21 - 3 * a21 * s02 + a22 * s01],
    ![ -a00 * s10 + 3 * a10 * s00 - 2 * a10 * s01,
      2 * a01 * s10 - 3 * a01 * s11 + a11 * s01,
      2 * a00 * s12 - 2 * a02 * s10 - a02 * s12 - 2 * a11 * s02 + 2 * a12 * s01 + a12 * s02,
      2 * a00 * s10 - 3 * a00 * s11 - a01 * s10 + a10 * s01 + 3 * a11 * s00 - 2 * a11 * s01,
      a00 * s12 - 3 * a02 * s10 + 6 * a10 * s01 - 5 * a10 * s02 - 6 * a11 * s00 + 4 * a11 * s02 + 9 * a12 * s00 - 6 * a12 * s01,
      6 * a00 * s11 - 4 * a00 * s12 - 6 * a01 * s10 + 5 * a01 * s12 + 6 * a02 * s10 - 9 * a02 * s11 - a11 * s02 + 3 * a12 * s01], by
    refine MvPolynomial.funext fun v => ?_
    rw [eval_bracket]
    simp only [oddP, genP, sexP, quadP, map_add, map_mul, map_pow, Derivation.leibniz, Derivation.leibniz_pow, pderiv_C, pd,
      smul_eq_mul, nsmul_eq_mul, eval_C, eval_X]
    simp
    ring⟩

/-- The bracket of the even quartic terms with the generator. -/
theorem bracket_even (t : ℕ → ℕ → ℝ) (s00 s01 s02 s10 s11 s12 s20 s21 s22 : ℝ) :
    HasParts (bracket (quarticH t) (genP s00 s01 s02 s10 s11 s12 s20 s21 s22))
      (0)
      (0)
      (0)
      (0)
      (0)
      (0)
      (0)
      (0)
      (0)
      (0) :=
  ⟨![ -6 * s00 * t 0 1 + 6 * s00 * t 0 2 - 6 * s00 * t 1 0 + 6 * s00 * t 2 0 + 8 * s01 * t 0 0 - 4 * s01 * t 0 2 - 4 * s01 * t 2 0 - 8 * s02 * t 0 0 + 4 * s02 * t 0 1 + 4 * s02 * t 1 0,
      -4 * s01 * t 1 1 + 2 * s01 * t 1 2 + 2 * s01 * t 2 1,
      -2 * s02 * t 1 2 - 2 * s02 * t 2 1 + 4 * s02 * t 2 2,
      -12 * s00 * t 1 1 + 6 * s00 * t 1 2 + 6 * s00 * t 2 1 + 2 * s01 * t 0 1 + 2 * s01 * t 0 2 + 2 * s01 * t 1 0 - 4 * s01 * t 1 2 + 2 * s01 * t 2 0 - 4 * s01 * t 2 1 - 4 * s02 * t 0 1 - 4 * s02 * t 1 0 + 8 * s02 * t 1 1,
      -6 * s00 * t 1 2 - 6 * s00 * t 2 1 + 12 * s00 * t 2 2 + 4 * s01 * t 0 2 + 4 * s01 * t 2 0 - 8 * s01 * t 2 2 - 2 * s02 * t 0 1 - 2 * s02 * t 0 2 - 2 * s02 * t 1 0 + 4 * s02 * t 1 2 - 2 * s02 * t 2 0 + 4 * s02 * t 2 1,
      -2 * s01 * t 1 2 - 2 * s01 * t 2 1 + 4 * s01 * t 2 2 - 4 * s02 * t 1 1 + 2 * s02 * t 1 2 + 2 * s02 * t 2 1],
    ![ 4 * s10 * t 0 0 - 2 * s10 * t 0 2 - 2 * s10 * t 2 0,
      -8 * s10 * t 1 1 + 4 * s10 * t 1 2 + 4 * s10 * t 2 1 + 6 * s11 * t 0 1 + 6 * s11 * t 1 0 - 6 * s11 * t 1 2 - 6 * s11 * t 2 1 - 4 * s12 * t 0 1 - 4 * s12 * t 1 0 + 8 * s12 * t 1 1,
      2 * s12 * t 0 2 + 2 * s12 * t 2 0 - 4 * s12 * t 2 2,
      -2 * s10 * t 0 1 + 4 * s10 * t 0 2 - 2 * s10 * t 1 0 - 2 * s10 * t 1 2 + 4 * s10 * t 2 0 - 2 * s10 * t 2 1 + 12 * s11 * t 0 0 - 6 * s11 * t 0 2 - 6 * s11 * t 2 0 - 8 * s12 * t 0 0 + 4 * s12 * t 0 1 + 4 * s12 * t 1 0,
      2 * s10 * t 0 2 + 2 * s10 * t 2 0 - 4 * s10 * t 2 2 + 4 * s12 * t 0 0 - 2 * s12 * t 0 2 - 2 * s12 * t 2 0,
      -4 * s10 * t 1 2 - 4 * s10 * t 2 1 + 8 * s10 * t 2 2 + 6 * s11 * t 0 2 + 6 * s11 * t 2 0 - 12 * s11 * t 2 2 + 2 * s12 * t 0 1 - 4 * s12 * t 0 2 + 2 * s12 * t 1 0 + 2 * s12 * t 1 2 - 4 * s12 * t 2 0 + 2 * s12 * t 2 1],
    ![ -4 * s20 * t 0 0 + 2 * s20 * t 0 1 + 2 * s20 * t 1 0,
      -2 * s21 * t 0 1 - 2 * s21 * t 1 0 + 4 * s21 * t 1 1,
      -4 * s20 * t 1 2 - 4 * s20 * t 2 1 + 8 * s20 * t 2 2 + 4 * s21 * t 0 2 + 4 * s21 * t 2 0 - 8 * s21 * t 2 2 - 6 * s22 * t 0 2 + 6 * s22 * t 1 2 - 6 * s22 * t 2 0 + 6 * s22 * t 2 1,
      -2 * s20 * t 0 1 - 2 * s20 * t 1 0 + 4 * s20 * t 1 1 - 4 * s21 * t 0 0 + 2 * s21 * t 0 1 + 2 * s21 * t 1 0,
      -4 * s20 * t 0 1 + 2 * s20 * t 0 2 - 4 * s20 * t 1 0 + 2 * s20 * t 1 2 + 2 * s20 * t 2 0 + 2 * s20 * t 2 1 + 8 * s21 * t 0 0 - 4 * s21 * t 0 2 - 4 * s21 * t 2 0 - 12 * s22 * t 0 0 + 6 * s22 * t 0 1 + 6 * s22 * t 1 0,
      -8 * s20 * t 1 1 + 4 * s20 * t 1 2 + 4 * s20 * t 2 1 + 4 * s21 * t 0 1 - 2 * s21 * t 0 2 + 4 * s21 * t 1 0 - 2 * s21 * t 1 2 - 2 * s21 * t 2 0 - 2 * s21 * t 2 1 - 6 * s22 * t 0 1 - 6 * s22 * t 1 0 + 12 * s22 * t 1 1], by
    refine MvPolynomial.funext fun v => ?_
    rw [eval_bracket]
    simp only [quarticH, sum3, genP, sexP, quadP, map_add, map_mul, map_pow, Derivation.leibniz, Derivation.leibniz_pow,
      pderiv_C, pd, smul_eq_mul, nsmul_eq_mul, eval_C, eval_X]
    simp
    ring⟩

/-- The bracket of the rigid rotor with the generators of order three. -/
theorem bracket_gen (B : ℕ → ℝ) (s00 s01 s02 s10 s11 s12 s20 s21 s22 : ℝ) :
    bracket (rotorH B) (genP s00 s01 s02 s10 s11 s12 s20 s21 s22) =
      oddP (3 * (2 * (B 2 - B 1)) * s00 + 2 * (2 * (B 0 - B 2)) * s01 + 2 * (2 * (B 1 - B 0)) * s02)
        (2 * (B 2 - B 1) * s01) (2 * (B 2 - B 1) * s02)
        (2 * (B 0 - B 2) * s10) (3 * (2 * (B 0 - B 2)) * s11 + 2 * (2 * (B 2 - B 1)) * s10 + 2 * (2 * (B 1 - B 0)) * s12)
        (2 * (B 0 - B 2) * s12) (2 * (B 1 - B 0) * s20) (2 * (B 1 - B 0) * s21)
        (3 * (2 * (B 1 - B 0)) * s22 + 2 * (2 * (B 2 - B 1)) * s20 + 2 * (2 * (B 0 - B 2)) * s21) := by
  refine MvPolynomial.funext fun v => ?_
  rw [eval_bracket]
  simp only [rotorH, sum3, genP, oddP, map_add, map_mul, map_pow, Derivation.leibniz, Derivation.leibniz_pow, pderiv_C,
    pd, smul_eq_mul, nsmul_eq_mul, eval_C, eval_X]
  simp
  ring

/-- The bracket of the rigid rotor with the generators of order five. -/
theorem bracket_gen5 (B : ℕ → ℝ) (u v w : Fin 6 → ℝ) :
    bracket (rotorH B) (X 0 * quadP u + X 1 * quadP v + X 2 * quadP w) =
      X 1 * X 2 * quadP ![5 * (2 * (B 2 - B 1)) * u 0 + 2 * (2 * (B 0 - B 2)) * u 3 + 2 * (2 * (B 1 - B 0)) * u 4,
        2 * (B 2 - B 1) * u 1, 2 * (B 2 - B 1) * u 2,
        3 * (2 * (B 2 - B 1)) * u 3 + 4 * (2 * (B 0 - B 2)) * u 1 + 2 * (2 * (B 1 - B 0)) * u 5,
        3 * (2 * (B 2 - B 1)) * u 4 + 2 * (2 * (B 0 - B 2)) * u 5 + 4 * (2 * (B 1 - B 0)) * u 2, 2 * (B 2 - B 1) * u 5] +
      X 0 * X 2 * quadP ![2 * (B 0 - B 2) * v 0,
        5 * (2 * (B 0 - B 2)) * v 1 + 2 * (2 * (B 2 - B 1)) * v 3 + 2 * (2 * (B 1 - B 0)) * v 5, 2 * (B 0 - B 2) * v 2,
        3 * (2 * (B 0 - B 2)) * v 3 + 4 * (2 * (B 2 - B 1)) * v 0 + 2 * (2 * (B 1 - B 0)) * v 4, 2 * (B 0 - B 2) * v 4,
        3 * (2 * (B 0 - B 2)) * v 5 + 2 * (2 * (B 2 - B 1)) * v 4 + 4 * (2 * (B 1 - B 0)) * v 2] +
      X 0 * X 1 * quadP ![2 * (B 1 - B 0) * w 0, 2 * (B 1 - B 0) * w 1,
        5 * (2 * (B 1 - B 0)) * w 2 + 2 * (2 * (B 2 - B 1)) * w 4 + 2 * (2 * (B 0 - B 2)) * w 5, 2 * (B 1 - B 0) * w 3,
        3 * (2 * (B 1 - B 0)) * w 4 + 4 * (2 * (B 2 - B 1)) * w 0 + 2 * (2 * (B 0 - B 2)) * w 3,
        3 * (2 * (B 1 - B 0)) * w 5 + 2 * (2 * (B 2 - B 1)) * w 3 + 4 * (2 * (B 0 - B 2)) * w 1] := by
  refine MvPolynomial.funext fun x => ?_
  rw [eval_bracket]
  simp only [rotorH, sum3, quadP, map_add, map_mul, map_pow, Derivation.leibniz, Derivation.leibniz_pow, pderiv_C,
    pd, smul_eq_mul, nsmul_eq_mul, eval_C, eval_X]
  simp
  ring

theorem skewGen_three (s00 s01 s02 s10 s11 s12 s20 s21 s22 : ℝ) : SkewGen 3 (genP s00 s01 s02 s10 s11 s12 s20 s21 s22) :=
  have h : ∀ a b c : ℝ, (C a * X 0 ^ 2 + C b * X 1 ^ 2 + C c * X 2 ^ 2 : Poly).IsHomogeneous 2 := fun a b c =>
    (((hom_sq 0).C_mul a).add ((hom_sq 1).C_mul b)).add ((hom_sq 2).C_mul c)
  ⟨(((hom_X 0).mul (h s00 s01 s02)).add ((hom_X 1).mul (h s10 s11 s12))).add ((hom_X 2).mul (h s20 s21 s22)), ![C s00 * X 0 + C s01 * X 1 + C s02 * X 2, C s10 * X 0 + C s11 * X 1 + C s12 * X 2,
    C s20 * X 0 + C s21 * X 1 + C s22 * X 2], by simp [sum3, genP, expand_C]⟩

theorem hom_quad (u : Fin 6 → ℝ) : (quadP u).IsHomogeneous 4 := by
  have h4 : ∀ i : Fin 3, (X i ^ 4 : Poly).IsHomogeneous 4 := fun i => by simpa using (hom_X i).pow 4
  exact (((((h4 0).C_mul _).add ((h4 1).C_mul _)).add ((h4 2).C_mul _) |>.add (((hom_sq 0).mul (hom_sq 1)).C_mul _)).add
    (((hom_sq 0).mul (hom_sq 2)).C_mul _)).add (((hom_sq 1).mul (hom_sq 2)).C_mul _)

theorem skewGen_five (u v w : Fin 6 → ℝ) : SkewGen 5 (X 0 * quadP u + X 1 * quadP v + X 2 * quadP w) := by
  have key : ∀ u : Fin 6 → ℝ, quadP u = expand 2 (C (u 0) * X 0 ^ 2 + C (u 1) * X 1 ^ 2 + C (u 2) * X 2 ^ 2 +
      C (u 3) * (X 0 * X 1) + C (u 4) * (X 0 * X 2) + C (u 5) * (X 1 * X 2)) := by
    intro u
    simp only [quadP, map_add, map_mul, map_pow, expand_C, expand_X]
    ring
  exact ⟨(((hom_X 0).mul (hom_quad u)).add ((hom_X 1).mul (hom_quad v))).add ((hom_X 2).mul (hom_quad w)),
    ![_, _, _], by rw [sum3]; simp only [Matrix.cons_val_zero, Matrix.cons_val_one, Matrix.cons_val]; rw [key u, key v, key w]⟩

/-- Odd sextic terms can be removed. -/
theorem remove_odd (B : ℕ → ℝ) (h01 : B 0 ≠ B 1) (h02 : B 0 ≠ B 2) (h12 : B 1 ≠ B 2) (u v w : Fin 6 → ℝ) :
    ∃ t, SkewGen 5 t ∧ bracket (rotorH B) t = -(X 1 * X 2 * quadP u + X 0 * X 2 * quadP v + X 0 * X 1 * quadP w) := by
  obtain ⟨a, ha⟩ : ∃ a, a = 2 * (B 2 - B 1) := ⟨_, rfl⟩
  obtain ⟨b, hb⟩ : ∃ b, b = 2 * (B 0 - B 2) := ⟨_, rfl⟩
  obtain ⟨c, hc⟩ : ∃ c, c = 2 * (B 1 - B 0) := ⟨_, rfl⟩
  have ha0 : a ≠ 0 := by rw [ha]; exact mul_ne_zero two_ne_zero (sub_ne_zero.2 h12.symm)
  have hb0 : b ≠ 0 := by rw [hb]; exact mul_ne_zero two_ne_zero (sub_ne_zero.2 h02)
  have hc0 : c ≠ 0 := by rw [hc]; exact mul_ne_zero two_ne_zero (sub_ne_zero.2 h01.symm)
  -- one class at a time: the powers of the component itself are solved for last
  have key : ∀ a b c : ℝ, c ≠ 0 → ∀ r0 r1 r2 r3 r4 r5 : ℝ, ∃ q0 q1 q2 q3 q4 q5 : ℝ, c * q0 = -r0 ∧ c * q1 = -r1 ∧
      5 * c * q2 + 2 * a * q4 + 2 * b * q5 = -r2 ∧ c * q3 = -r3 ∧ 3 * c * q4 + 4 * a * q0 + 2 * b * q3 = -r4 ∧
      3 * c * q5 + 2 * a * q3 + 4 * b * q1 = -r5 := by
    intro a b c hc r0 r1 r2 r3 r4 r5
    obtain ⟨q0, h0⟩ : ∃ q, c * q = -r0 := ⟨-r0 / c, by field_simp⟩
    obtain ⟨q1, h1⟩ : ∃ q, c * q = -r1 := ⟨-r1 / c, by field_simp⟩
    obtain ⟨q3, h3⟩ : ∃ q, c * q = -r3 := ⟨-r3 / c, by field_simp⟩
    obtain ⟨q4, h4⟩ : ∃ q, c * q = (-r4 - 4 * a * q0 - 2 * b * q3) / 3 :=
      ⟨(-r4 - 4 * a * q0 - 2 * b * q3) / 3 / c, by field_simp⟩
    obtain ⟨q5, h5⟩ : ∃ q, c * q = (-r5 - 2 * a * q3 - 4 * b * q1) / 3 :=
      ⟨(-r5 - 2 * a * q3 - 4 * b * q1) / 3 / c, by field_simp⟩
    obtain ⟨q2, h2⟩ : ∃ q, c * q = (-r2 - 2 * a * q4 - 2 * b * q5) / 5 :=
      ⟨(-r2 - 2 * a * q4 - 2 * b * q5) / 5 / c, by field_simp⟩
    exact ⟨q0, q1, q2, q3, q4, q5, h0, h1, by linear_combination 5 * h2, h3, by linear_combination 3 * h4,
      by linear_combination 3 * h5⟩
  obtain ⟨x1, x2, x0, x5, x3, x4, X1, X2, X0, X5, X3, X4⟩ := key b c a ha0 (u 1) (u 2) (u 0) (u 5) (u 3) (u 4)
  obtain ⟨y0, y2, y1, y4, y3, y5, Y0, Y2, Y1, Y4, Y3, Y5⟩ := key a c b hb0 (v 0) (v 2) (v 1) (v 4) (v 3) (v 5)
  obtain ⟨z0, z1, z2, z3, z4, z5, Z0, Z1, Z2, Z3, Z4, Z5⟩ := key a b c hc0 (w 0) (w 1) (w 2) (w 3) (w 4) (w 5)
  refine ⟨_, skewGen_five ![x0, x1, x2, x3, x4, x5] ![y0, y1, y2, y3, y4, y5] ![z0, z1, z2, z3, z4, z5], ?_⟩
  rw [bracket_gen5, ← ha, ← hb, ← hc]
  have ex : ∀ u u' : Fin 6 → ℝ, (∀ i, u i = -u' i) → quadP u = -quadP u' := by
    intro u u' h
    simp only [quadP, h, map_neg]
    ring
  have split : ∀ f g h f' g' h' : Poly, f = -f' → g = -g' → h = -h' →
      X 1 * X 2 * f + X 0 * X 2 * g + X 0 * X 1 * h = -(X 1 * X 2 * f' + X 0 * X 2 * g' + X 0 * X 1 * h') := by
    intro f g h f' g' h' e1 e2 e3
    rw [e1, e2, e3]
    ring
  refine split _ _ _ _ _ _ (ex _ _ ?_) (ex _ _ ?_) (ex _ _ ?_) <;>
  · intro i
    fin_cases i <;> simp <;> linarith

/-- The odd quartic terms can be removed. -/
theorem remove_odd4 (B : ℕ → ℝ) (h01 : B 0 ≠ B 1) (h02 : B 0 ≠ B 2) (h12 : B 1 ≠ B 2)
    (a00 a01 a02 a10 a11 a12 a20 a21 a22 : ℝ) : ∃ s00 s01 s02 s10 s11 s12 s20 s21 s22 : ℝ,
    s01 = -a01 / (2 * (B 2 - B 1)) ∧ s02 = -a02 / (2 * (B 2 - B 1)) ∧
    s00 = (-a00 - 2 * (2 * (B 0 - B 2)) * s01 - 2 * (2 * (B 1 - B 0)) * s02) / (3 * (2 * (B 2 - B 1))) ∧
    s10 = -a10 / (2 * (B 0 - B 2)) ∧ s12 = -a12 / (2 * (B 0 - B 2)) ∧
    s11 = (-a11 - 2 * (2 * (B 2 - B 1)) * s10 - 2 * (2 * (B 1 - B 0)) * s12) / (3 * (2 * (B 0 - B 2))) ∧
    s20 = -a20 / (2 * (B 1 - B 0)) ∧ s21 = -a21 / (2 * (B 1 - B 0)) ∧
    s22 = (-a22 - 2 * (2 * (B 2 - B 1)) * s20 - 2 * (2 * (B 0 - B 2)) * s21) / (3 * (2 * (B 1 - B 0))) ∧
    bracket (rotorH B) (genP s00 s01 s02 s10 s11 s12 s20 s21 s22) = -oddP a00 a01 a02 a10 a11 a12 a20 a21 a22 := by
  have ha0 : B 2 - B 1 ≠ 0 := sub_ne_zero.2 h12.symm
  have hb0 : B 0 - B 2 ≠ 0 := sub_ne_zero.2 h02
  have hc0 : B 1 - B 0 ≠ 0 := sub_ne_zero.2 h01.symm
  refine ⟨_, _, _, _, _, _, _, _, _, rfl, rfl, rfl, rfl, rfl, rfl, rfl, rfl, rfl, ?_⟩
  rw [bracket_gen]
  have ex : ∀ a00 a01 a02 a10 a11 a12 a20 a21 a22 : ℝ, -oddP a00 a01 a02 a10 a11 a12 a20 a21 a22 =
      oddP (-a00) (-a01) (-a02) (-a10) (-a11) (-a12) (-a20) (-a21) (-a22) := by
    intros
    simp only [oddP, map_neg]
    ring
  rw [ex]
  congr 1 <;> field_simp <;> ring

end Verif
