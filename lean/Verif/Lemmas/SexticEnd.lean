import Verif.Lemmas.SexticSkew

/-! The sextic coefficient tensor of asymmetric tops: the even terms left by the transformation. -/

namespace Verif

open MvPolynomial

theorem apart_ne {a b : ℝ} (h : 1 / 200 < |a - b|) : a ≠ b := by
  rintro rfl
  norm_num at h

theorem rotorData_tau (nvib : Nat) (rotcon primat freq : Vec ℝ) (wila : Mat ℝ) (zmat f3 : T3 ℝ) :
    (rotorData nvib rotcon primat freq wila zmat f3).τ = makeTau nvib freq primat wila := by
  funext i j k l
  rw [c44_value]
  rfl

theorem tau_symm (nvib : Nat) (freq primat : Vec ℝ) (wila : Mat ℝ) : TauSymm (makeTau nvib freq primat wila) :=
  c44_symmetric nvib freq primat wila

theorem raw_eq (D : RotorData) : D.H6 = C (3 / 16) * (∑ w : Fin 3, C (1 / D.B w) * D.torque w ^ 2) +
    C (-2) * (∑ i ∈ Finset.range D.nvib, C (D.ω i) * D.coriolis i ^ 2) +
    C (1 / 6) * ∑ i ∈ Finset.range D.nvib, ∑ j ∈ Finset.range D.nvib, ∑ k ∈ Finset.range D.nvib,
      C (D.k i j k) * (D.shift i * D.shift j * D.shift k) := by
  rw [map_neg, neg_mul, ← sub_eq_add_neg]
  rfl

theorem gap_d0 {B0 B1 B2 t0001 t0002 t0012 t0102 t0111 t0112 t0122 t0211 t0212 t0222 t1112 t1222 s00 s01 s02 s10 s11 s12 s20 s21 s22 : ℝ} (h01 : B0 ≠ B1) (h02 : B0 ≠ B2)
    (h12 : B1 ≠ B2)
    (e1 : s01 = -t1112 / (2 * (B2 - B1))) (e2 : s02 = -t1222 / (2 * (B2 - B1)))
    (e3 : s00 = (-(t0012 + 2 * t0102) - 2 * (2 * (B0 - B2)) * s01 - 2 * (2 * (B1 - B0)) * s02) / (3 * (2 * (B2 - B1))))
    (e4 : s10 = -t0002 / (2 * (B0 - B2))) (e5 : s12 = -t0222 / (2 * (B0 - B2)))
    (e6 : s11 = (-(t0211 + 2 * t0112) - 2 * (2 * (B2 - B1)) * s10 - 2 * (2 * (B1 - B0)) * s12) / (3 * (2 * (B0 - B2))))
    (e7 : s20 = -t0001 / (2 * (B1 - B0))) (e8 : s21 = -t0111 / (2 * (B1 - B0)))
    (e9 : s22 = (-(t0122 + 2 * t0212) - 2 * (2 * (B2 - B1)) * s20 - 2 * (2 * (B0 - B2)) * s21) / (3 * (2 * (B1 - B0)))) :
    1 / 4 * (t0001 ^ 2 / (B0 - B1) + t0002 ^ 2 / (B0 - B2)) =
      1 / 2 * (-t0002 * s10 + t0001 * s20) := by
  have n01 : B0 - B1 ≠ 0 := sub_ne_zero.2 h01
  have n10 : B1 - B0 ≠ 0 := sub_ne_zero.2 h01.symm
  have n02 : B0 - B2 ≠ 0 := sub_ne_zero.2 h02
  have n20 : B2 - B0 ≠ 0 := sub_ne_zero.2 h02.symm
  have n12 : B1 - B2 ≠ 0 := sub_ne_zero.2 h12
  have n21 : B2 - B1 ≠ 0 := sub_ne_zero.2 h12.symm
  rw [show B1 - B0 = -(B0 - B1) by ring, show B2 - B0 = -(B0 - B2) by ring, show B2 - B1 = -(B1 - B2) by ring] at *
  subst e1 e2 e3 e4 e5 e6 e7 e8 e9
  field_simp
  ring

theorem gap_d1 {B0 B1 B2 t0001 t0002 t0012 t0102 t0111 t0112 t0122 t0211 t0212 t0222 t1112 t1222 s00 s01 s02 s10 s11 s12 s20 s21 s22 : ℝ} (h01 : B0 ≠ B1) (h02 : B0 ≠ B2)
    (h12 : B1 ≠ B2)
    (e1 : s01 = -t1112 / (2 * (B2 - B1))) (e2 : s02 = -t1222 / (2 * (B2 - B1)))
    (e3 : s00 = (-(t0012 + 2 * t0102) - 2 * (2 * (B0 - B2)) * s01 - 2 * (2 * (B1 - B0)) * s02) / (3 * (2 * (B2 - B1))))
    (e4 : s10 = -t0002 / (2 * (B0 - B2))) (e5 : s12 = -t0222 / (2 * (B0 - B2)))
    (e6 : s11 = (-(t0211 + 2 * t0112) - 2 * (2 * (B2 - B1)) * s10 - 2 * (2 * (B1 - B0)) * s12) / (3 * (2 * (B0 - B2))))
    (e7 : s20 = -t0001 / (2 * (B1 - B0))) (e8 : s21 = -t0111 / (2 * (B1 - B0)))
    (e9 : s22 = (-(t0122 + 2 * t0212) - 2 * (2 * (B2 - B1)) * s20 - 2 * (2 * (B0 - B2)) * s21) / (3 * (2 * (B1 - B0)))) :
    1 / 4 * (t0111 ^ 2 / (B1 - B0) + t1112 ^ 2 / (B1 - B2)) =
      1 / 2 * (t1112 * s01 - t0111 * s21) := by
  have n01 : B0 - B1 ≠ 0 := sub_ne_zero.2 h01
  have n10 : B1 - B0 ≠ 0 := sub_ne_zero.2 h01.symm
  have n02 : B0 - B2 ≠ 0 := sub_ne_zero.2 h02
  have n20 : B2 - B0 ≠ 0 := sub_ne_zero.2 h02.symm
  have n12 : B1 - B2 ≠ 0 := sub_ne_zero.2 h12
  have n21 : B2 - B1 ≠ 0 := sub_ne_zero.2 h12.symm
  rw [show B1 - B0 = -(B0 - B1) by ring, show B2 - B0 = -(B0 - B2) by ring, show B2 - B1 = -(B1 - B2) by ring] at *
  subst e1 e2 e3 e4 e5 e6 e7 e8 e9
  field_simp
  ring

theorem gap_d2 {B0 B1 B2 t0001 t0002 t0012 t0102 t0111 t0112 t0122 t0211 t0212 t0222 t1112 t1222 s00 s01 s02 s10 s11 s12 s20 s21 s22 : ℝ} (h01 : B0 ≠ B1) (h02 : B0 ≠ B2)
    (h12 : B1 ≠ B2)
    (e1 : s01 = -t1112 / (2 * (B2 - B1))) (e2 : s02 = -t1222 / (2 * (B2 - B1)))
    (e3 : s00 = (-(t0012 + 2 * t0102) - 2 * (2 * (B0 - B2)) * s01 - 2 * (2 * (B1 - B0)) * s02) / (3 * (2 * (B2 - B1))))
    (e4 : s10 = -t0002 / (2 * (B0 - B2))) (e5 : s12 = -t0222 / (2 * (B0 - B2)))
    (e6 : s11 = (-(t0211 + 2 * t0112) - 2 * (2 * (B2 - B1)) * s10 - 2 * (2 * (B1 - B0)) * s12) / (3 * (2 * (B0 - B2))))
    (e7 : s20 = -t0001 / (2 * (B1 - B0))) (e8 : s21 = -t0111 / (2 * (B1 - B0)))
    (e9 : s22 = (-(t0122 + 2 * t0212) - 2 * (2 * (B2 - B1)) * s20 - 2 * (2 * (B0 - B2)) * s21) / (3 * (2 * (B1 - B0)))) :
    1 / 4 * (t0222 ^ 2 / (B2 - B0) + t1222 ^ 2 / (B2 - B1)) =
      1 / 2 * (-t1222 * s02 + t0222 * s12) := by
  have n01 : B0 - B1 ≠ 0 := sub_ne_zero.2 h01
  have n10 : B1 - B0 ≠ 0 := sub_ne_zero.2 h01.symm
  have n02 : B0 - B2 ≠ 0 := sub_ne_zero.2 h02
  have n20 : B2 - B0 ≠ 0 := sub_ne_zero.2 h02.symm
  have n12 : B1 - B2 ≠ 0 := sub_ne_zero.2 h12
  have n21 : B2 - B1 ≠ 0 := sub_ne_zero.2 h12.symm
  rw [show B1 - B0 = -(B0 - B1) by ring, show B2 - B0 = -(B0 - B2) by ring, show B2 - B1 = -(B1 - B2) by ring] at *
  subst e1 e2 e3 e4 e5 e6 e7 e8 e9
  field_simp
  ring

theorem gap_p01 {B0 B1 B2 t0001 t0002 t0012 t0102 t0111 t0112 t0122 t0211 t0212 t0222 t1112 t1222 s00 s01 s02 s10 s11 s12 s20 s21 s22 : ℝ} (h01 : B0 ≠ B1) (h02 : B0 ≠ B2)
    (h12 : B1 ≠ B2)
    (e1 : s01 = -t1112 / (2 * (B2 - B1))) (e2 : s02 = -t1222 / (2 * (B2 - B1)))
    (e3 : s00 = (-(t0012 + 2 * t0102) - 2 * (2 * (B0 - B2)) * s01 - 2 * (2 * (B1 - B0)) * s02) / (3 * (2 * (B2 - B1))))
    (e4 : s10 = -t0002 / (2 * (B0 - B2))) (e5 : s12 = -t0222 / (2 * (B0 - B2)))
    (e6 : s11 = (-(t0211 + 2 * t0112) - 2 * (2 * (B2 - B1)) * s10 - 2 * (2 * (B1 - B0)) * s12) / (3 * (2 * (B0 - B2))))
    (e7 : s20 = -t0001 / (2 * (B1 - B0))) (e8 : s21 = -t0111 / (2 * (B1 - B0)))
    (e9 : s22 = (-(t0122 + 2 * t0212) - 2 * (2 * (B2 - B1)) * s20 - 2 * (2 * (B0 - B2)) * s21) / (3 * (2 * (B1 - B0)))) :
    (4 * t0111 - 3 * t0001) * t0001 / (8 * (B0 - B1)) +
      t0002 * ((B0 - B2) * (t0211 + 2 * t0112) + (B0 - B1) * (t0222 - t0002)) / (4 * (B0 - B2) ^ 2) +
      (t0012 + 2 * t0102) * ((B1 - B2) * (t0012 + 2 * t0102) + 2 * (B0 - B1) * (t1112 - t1222)) / (8 * (B1 - B2) ^ 2) =
      1 / 2 * (3 / 2 * (t0012 + 2 * t0102) * s00 - (t0012 + 2 * t0102) * s01 + t0002 * s10 - 3 / 2 * t0002 * s11 - 1 / 2 * (t0211 + 2 * t0112) * s10 - 3 / 2 * t0001 * s20 + 1 / 2 * t0001 * s21 + 3 / 2 * t0111 * s20) := by
  have n01 : B0 - B1 ≠ 0 := sub_ne_zero.2 h01
  have n10 : B1 - B0 ≠ 0 := sub_ne_zero.2 h01.symm
  have n02 : B0 - B2 ≠ 0 := sub_ne_zero.2 h02
  have n20 : B2 - B0 ≠ 0 := sub_ne_zero.2 h02.symm
  have n12 : B1 - B2 ≠ 0 := sub_ne_zero.2 h12
  have n21 : B2 - B1 ≠ 0 := sub_ne_zero.2 h12.symm
  rw [show B1 - B0 = -(B0 - B1) by ring, show B2 - B0 = -(B0 - B2) by ring, show B2 - B1 = -(B1 - B2) by ring] at *
  subst e1 e2 e3 e4 e5 e6 e7 e8 e9
  field_simp
  ring

theorem gap_p02 {B0 B1 B2 t0001 t0002 t0012 t0102 t0111 t0112 t0122 t0211 t0212 t0222 t1112 t1222 s00 s01 s02 s10 s11 s12 s20 s21 s22 : ℝ} (h01 : B0 ≠ B1) (h02 : B0 ≠ B2)
    (h12 : B1 ≠ B2)
    (e1 : s01 = -t1112 / (2 * (B2 - B1))) (e2 : s02 = -t1222 / (2 * (B2 - B1)))
    (e3 : s00 = (-(t0012 + 2 * t0102) - 2 * (2 * (B0 - B2)) * s01 - 2 * (2 * (B1 - B0)) * s02) / (3 * (2 * (B2 - B1))))
    (e4 : s10 = -t0002 / (2 * (B0 - B2))) (e5 : s12 = -t0222 / (2 * (B0 - B2)))
    (e6 : s11 = (-(t0211 + 2 * t0112) - 2 * (2 * (B2 - B1)) * s10 - 2 * (2 * (B1 - B0)) * s12) / (3 * (2 * (B0 - B2))))
    (e7 : s20 = -t0001 / (2 * (B1 - B0))) (e8 : s21 = -t0111 / (2 * (B1 - B0)))
    (e9 : s22 = (-(t0122 + 2 * t0212) - 2 * (2 * (B2 - B1)) * s20 - 2 * (2 * (B0 - B2)) * s21) / (3 * (2 * (B1 - B0)))) :
    (4 * t0222 - 3 * t0002) * t0002 / (8 * (B0 - B2)) +
      t0001 * ((B0 - B1) * (t0122 + 2 * t0212) + (B0 - B2) * (t0111 - t0001)) / (4 * (B0 - B1) ^ 2) +
      (t0012 + 2 * t0102) * ((B2 - B1) * (t0012 + 2 * t0102) + 2 * (B0 - B2) * (t1222 - t1112)) / (8 * (B2 - B1) ^ 2) =
      1 / 2 * (-3 / 2 * (t0012 + 2 * t0102) * s00 + (t0012 + 2 * t0102) * s02 + 3 / 2 * t0002 * s10 - 1 / 2 * t0002 * s12 - 3 / 2 * t0222 * s10 - t0001 * s20 + 3 / 2 * t0001 * s22 + 1 / 2 * (t0122 + 2 * t0212) * s20) := by
  have n01 : B0 - B1 ≠ 0 := sub_ne_zero.2 h01
  have n10 : B1 - B0 ≠ 0 := sub_ne_zero.2 h01.symm
  have n02 : B0 - B2 ≠ 0 := sub_ne_zero.2 h02
  have n20 : B2 - B0 ≠ 0 := sub_ne_zero.2 h02.symm
  have n12 : B1 - B2 ≠ 0 := sub_ne_zero.2 h12
  have n21 : B2 - B1 ≠ 0 := sub_ne_zero.2 h12.symm
  rw [show B1 - B0 = -(B0 - B1) by ring, show B2 - B0 = -(B0 - B2) by ring, show B2 - B1 = -(B1 - B2) by ring] at *
  subst e1 e2 e3 e4 e5 e6 e7 e8 e9
  field_simp
  ring

theorem gap_p10 {B0 B1 B2 t0001 t0002 t0012 t0102 t0111 t0112 t0122 t0211 t0212 t0222 t1112 t1222 s00 s01 s02 s10 s11 s12 s20 s21 s22 : ℝ} (h01 : B0 ≠ B1) (h02 : B0 ≠ B2)
    (h12 : B1 ≠ B2)
    (e1 : s01 = -t1112 / (2 * (B2 - B1))) (e2 : s02 = -t1222 / (2 * (B2 - B1)))
    (e3 : s00 = (-(t0012 + 2 * t0102) - 2 * (2 * (B0 - B2)) * s01 - 2 * (2 * (B1 - B0)) * s02) / (3 * (2 * (B2 - B1))))
    (e4 : s10 = -t0002 / (2 * (B0 - B2))) (e5 : s12 = -t0222 / (2 * (B0 - B2)))
    (e6 : s11 = (-(t0211 + 2 * t0112) - 2 * (2 * (B2 - B1)) * s10 - 2 * (2 * (B1 - B0)) * s12) / (3 * (2 * (B0 - B2))))
    (e7 : s20 = -t0001 / (2 * (B1 - B0))) (e8 : s21 = -t0111 / (2 * (B1 - B0)))
    (e9 : s22 = (-(t0122 + 2 * t0212) - 2 * (2 * (B2 - B1)) * s20 - 2 * (2 * (B0 - B2)) * s21) / (3 * (2 * (B1 - B0)))) :
    (4 * t0001 - 3 * t0111) * t0111 / (8 * (B1 - B0)) +
      t1112 * ((B1 - B2) * (t0012 + 2 * t0102) + (B1 - B0) * (t1222 - t1112)) / (4 * (B1 - B2) ^ 2) +
      (t0211 + 2 * t0112) * ((B0 - B2) * (t0211 + 2 * t0112) + 2 * (B1 - B0) * (t0002 - t0222)) / (8 * (B0 - B2) ^ 2) =
      1 / 2 * (1 / 2 * (t0012 + 2 * t0102) * s01 + 3 / 2 * t1112 * s00 - t1112 * s01 + (t0211 + 2 * t0112) * s10 - 3 / 2 * (t0211 + 2 * t0112) * s11 - 3 / 2 * t0001 * s21 - 1 / 2 * t0111 * s20 + 3 / 2 * t0111 * s21) := by
  have n01 : B0 - B1 ≠ 0 := sub_ne_zero.2 h01
  have n10 : B1 - B0 ≠ 0 := sub_ne_zero.2 h01.symm
  have n02 : B0 - B2 ≠ 0 := sub_ne_zero.2 h02
  have n20 : B2 - B0 ≠ 0 := sub_ne_zero.2 h02.symm
  have n12 : B1 - B2 ≠ 0 := sub_ne_zero.2 h12
  have n21 : B2 - B1 ≠ 0 := sub_ne_zero.2 h12.symm
  rw [show B1 - B0 = -(B0 - B1) by ring, show B2 - B0 = -(B0 - B2) by ring, show B2 - B1 = -(B1 - B2) by ring] at *
  subst e1 e2 e3 e4 e5 e6 e7 e8 e9
  field_simp
  ring

theorem gap_p12 {B0 B1 B2 t0001 t0002 t0012 t0102 t0111 t0112 t0122 t0211 t0212 t0222 t1112 t1222 s00 s01 s02 s10 s11 s12 s20 s21 s22 : ℝ} (h01 : B0 ≠ B1) (h02 : B0 ≠ B2)
    (h12 : B1 ≠ B2)
    (e1 : s01 = -t1112 / (2 * (B2 - B1))) (e2 : s02 = -t1222 / (2 * (B2 - B1)))
    (e3 : s00 = (-(t0012 + 2 * t0102) - 2 * (2 * (B0 - B2)) * s01 - 2 * (2 * (B1 - B0)) * s02) / (3 * (2 * (B2 - B1))))
    (e4 : s10 = -t0002 / (2 * (B0 - B2))) (e5 : s12 = -t0222 / (2 * (B0 - B2)))
    (e6 : s11 = (-(t0211 + 2 * t0112) - 2 * (2 * (B2 - B1)) * s10 - 2 * (2 * (B1 - B0)) * s12) / (3 * (2 * (B0 - B2))))
    (e7 : s20 = -t0001 / (2 * (B1 - B0))) (e8 : s21 = -t0111 / (2 * (B1 - B0)))
    (e9 : s22 = (-(t0122 + 2 * t0212) - 2 * (2 * (B2 - B1)) * s20 - 2 * (2 * (B0 - B2)) * s21) / (3 * (2 * (B1 - B0)))) :
    (4 * t1222 - 3 * t1112) * t1112 / (8 * (B1 - B2)) +
      t0111 * ((B1 - B0) * (t0122 + 2 * t0212) + (B1 - B2) * (t0001 - t0111)) / (4 * (B1 - B0) ^ 2) +
      (t0211 + 2 * t0112) * ((B2 - B0) * (t0211 + 2 * t0112) + 2 * (B1 - B2) * (t0222 - t0002)) / (8 * (B2 - B0) ^ 2) =
      1 / 2 * (-3 / 2 * t1112 * s01 + 1 / 2 * t1112 * s02 + 3 / 2 * t1222 * s01 + 3 / 2 * (t0211 + 2 * t0112) * s11 - (t0211 + 2 * t0112) * s12 + t0111 * s21 - 3 / 2 * t0111 * s22 - 1 / 2 * (t0122 + 2 * t0212) * s21) := by
  have n01 : B0 - B1 ≠ 0 := sub_ne_zero.2 h01
  have n10 : B1 - B0 ≠ 0 := sub_ne_zero.2 h01.symm
  have n02 : B0 - B2 ≠ 0 := sub_ne_zero.2 h02
  have n20 : B2 - B0 ≠ 0 := sub_ne_zero.2 h02.symm
  have n12 : B1 - B2 ≠ 0 := sub_ne_zero.2 h12
  have n21 : B2 - B1 ≠ 0 := sub_ne_zero.2 h12.symm
  rw [show B1 - B0 = -(B0 - B1) by ring, show B2 - B0 = -(B0 - B2) by ring, show B2 - B1 = -(B1 - B2) by ring] at *
  subst e1 e2 e3 e4 e5 e6 e7 e8 e9
  field_simp
  ring

theorem gap_p20 {B0 B1 B2 t0001 t0002 t0012 t0102 t0111 t0112 t0122 t0211 t0212 t0222 t1112 t1222 s00 s01 s02 s10 s11 s12 s20 s21 s22 : ℝ} (h01 : B0 ≠ B1) (h02 : B0 ≠ B2)
    (h12 : B1 ≠ B2)
    (e1 : s01 = -t1112 / (2 * (B2 - B1))) (e2 : s02 = -t1222 / (2 * (B2 - B1)))
    (e3 : s00 = (-(t0012 + 2 * t0102) - 2 * (2 * (B0 - B2)) * s01 - 2 * (2 * (B1 - B0)) * s02) / (3 * (2 * (B2 - B1))))
    (e4 : s10 = -t0002 / (2 * (B0 - B2))) (e5 : s12 = -t0222 / (2 * (B0 - B2)))
    (e6 : s11 = (-(t0211 + 2 * t0112) - 2 * (2 * (B2 - B1)) * s10 - 2 * (2 * (B1 - B0)) * s12) / (3 * (2 * (B0 - B2))))
    (e7 : s20 = -t0001 / (2 * (B1 - B0))) (e8 : s21 = -t0111 / (2 * (B1 - B0)))
    (e9 : s22 = (-(t0122 + 2 * t0212) - 2 * (2 * (B2 - B1)) * s20 - 2 * (2 * (B0 - B2)) * s21) / (3 * (2 * (B1 - B0)))) :
    (4 * t0002 - 3 * t0222) * t0222 / (8 * (B2 - B0)) +
      t1222 * ((B2 - B1) * (t0012 + 2 * t0102) + (B2 - B0) * (t1112 - t1222)) / (4 * (B2 - B1) ^ 2) +
      (t0122 + 2 * t0212) * ((B0 - B1) * (t0122 + 2 * t0212) + 2 * (B2 - B0) * (t0001 - t0111)) / (8 * (B0 - B1) ^ 2) =
      1 / 2 * (-1 / 2 * (t0012 + 2 * t0102) * s02 - 3 / 2 * t1222 * s00 + t1222 * s02 + 3 / 2 * t0002 * s12 + 1 / 2 * t0222 * s10 - 3 / 2 * t0222 * s12 - (t0122 + 2 * t0212) * s20 + 3 / 2 * (t0122 + 2 * t0212) * s22) := by
  have n01 : B0 - B1 ≠ 0 := sub_ne_zero.2 h01
  have n10 : B1 - B0 ≠ 0 := sub_ne_zero.2 h01.symm
  have n02 : B0 - B2 ≠ 0 := sub_ne_zero.2 h02
  have n20 : B2 - B0 ≠ 0 := sub_ne_zero.2 h02.symm
  have n12 : B1 - B2 ≠ 0 := sub_ne_zero.2 h12
  have n21 : B2 - B1 ≠ 0 := sub_ne_zero.2 h12.symm
  rw [show B1 - B0 = -(B0 - B1) by ring, show B2 - B0 = -(B0 - B2) by ring, show B2 - B1 = -(B1 - B2) by ring] at *
  subst e1 e2 e3 e4 e5 e6 e7 e8 e9
  field_simp
  ring

theorem gap_p21 {B0 B1 B2 t0001 t0002 t0012 t0102 t0111 t0112 t0122 t0211 t0212 t0222 t1112 t1222 s00 s01 s02 s10 s11 s12 s20 s21 s22 : ℝ} (h01 : B0 ≠ B1) (h02 : B0 ≠ B2)
    (h12 : B1 ≠ B2)
    (e1 : s01 = -t1112 / (2 * (B2 - B1))) (e2 : s02 = -t1222 / (2 * (B2 - B1)))
    (e3 : s00 = (-(t0012 + 2 * t0102) - 2 * (2 * (B0 - B2)) * s01 - 2 * (2 * (B1 - B0)) * s02) / (3 * (2 * (B2 - B1))))
    (e4 : s10 = -t0002 / (2 * (B0 - B2))) (e5 : s12 = -t0222 / (2 * (B0 - B2)))
    (e6 : s11 = (-(t0211 + 2 * t0112) - 2 * (2 * (B2 - B1)) * s10 - 2 * (2 * (B1 - B0)) * s12) / (3 * (2 * (B0 - B2))))
    (e7 : s20 = -t0001 / (2 * (B1 - B0))) (e8 : s21 = -t0111 / (2 * (B1 - B0)))
    (e9 : s22 = (-(t0122 + 2 * t0212) - 2 * (2 * (B2 - B1)) * s20 - 2 * (2 * (B0 - B2)) * s21) / (3 * (2 * (B1 - B0)))) :
    (4 * t1112 - 3 * t1222) * t1222 / (8 * (B2 - B1)) +
      t0222 * ((B2 - B0) * (t0211 + 2 * t0112) + (B2 - B1) * (t0002 - t0222)) / (4 * (B2 - B0) ^ 2) +
      (t0122 + 2 * t0212) * ((B1 - B0) * (t0122 + 2 * t0212) + 2 * (B2 - B1) * (t0111 - t0001)) / (8 * (B1 - B0) ^ 2) =
      1 / 2 * (-3 / 2 * t1112 * s02 - 1 / 2 * t1222 * s01 + 3 / 2 * t1222 * s02 + 1 / 2 * (t0211 + 2 * t0112) * s12 + 3 / 2 * t0222 * s11 - t0222 * s12 + (t0122 + 2 * t0212) * s21 - 3 / 2 * (t0122 + 2 * t0212) * s22) := by
  have n01 : B0 - B1 ≠ 0 := sub_ne_zero.2 h01
  have n10 : B1 - B0 ≠ 0 := sub_ne_zero.2 h01.symm
  have n02 : B0 - B2 ≠ 0 := sub_ne_zero.2 h02
  have n20 : B2 - B0 ≠ 0 := sub_ne_zero.2 h02.symm
  have n12 : B1 - B2 ≠ 0 := sub_ne_zero.2 h12
  have n21 : B2 - B1 ≠ 0 := sub_ne_zero.2 h12.symm
  rw [show B1 - B0 = -(B0 - B1) by ring, show B2 - B0 = -(B0 - B2) by ring, show B2 - B1 = -(B1 - B2) by ring] at *
  subst e1 e2 e3 e4 e5 e6 e7 e8 e9
  field_simp
  ring

theorem gap_q {B0 B1 B2 t0001 t0002 t0012 t0102 t0111 t0112 t0122 t0211 t0212 t0222 t1112 t1222 s00 s01 s02 s10 s11 s12 s20 s21 s22 : ℝ} (h01 : B0 ≠ B1) (h02 : B0 ≠ B2)
    (h12 : B1 ≠ B2)
    (e1 : s01 = -t1112 / (2 * (B2 - B1))) (e2 : s02 = -t1222 / (2 * (B2 - B1)))
    (e3 : s00 = (-(t0012 + 2 * t0102) - 2 * (2 * (B0 - B2)) * s01 - 2 * (2 * (B1 - B0)) * s02) / (3 * (2 * (B2 - B1))))
    (e4 : s10 = -t0002 / (2 * (B0 - B2))) (e5 : s12 = -t0222 / (2 * (B0 - B2)))
    (e6 : s11 = (-(t0211 + 2 * t0112) - 2 * (2 * (B2 - B1)) * s10 - 2 * (2 * (B1 - B0)) * s12) / (3 * (2 * (B0 - B2))))
    (e7 : s20 = -t0001 / (2 * (B1 - B0))) (e8 : s21 = -t0111 / (2 * (B1 - B0)))
    (e9 : s22 = (-(t0122 + 2 * t0212) - 2 * (2 * (B2 - B1)) * s20 - 2 * (2 * (B0 - B2)) * s21) / (3 * (2 * (B1 - B0)))) :
    3 * (t1112 - t1222) * ((B2 - B0) * t1112 + (B0 - B1) * t1222) / (4 * (B1 - B2) ^ 2) +
      3 * (t0222 - t0002) * ((B0 - B1) * t0222 + (B1 - B2) * t0002) / (4 * (B2 - B0) ^ 2) +
      3 * (t0001 - t0111) * ((B1 - B2) * t0001 + (B2 - B0) * t0111) / (4 * (B0 - B1) ^ 2) =
      1 / 2 * (3 / 2 * (t0012 + 2 * t0102) * s01 - 3 / 2 * (t0012 + 2 * t0102) * s02 - 9 / 2 * t1112 * s00 + 3 * t1112 * s02 + 9 / 2 * t1222 * s00 - 3 * t1222 * s01 + 9 / 2 * t0002 * s11 - 3 * t0002 * s12 - 3 / 2 * (t0211 + 2 * t0112) * s10 + 3 / 2 * (t0211 + 2 * t0112) * s12 + 3 * t0222 * s10 - 9 / 2 * t0222 * s11 + 3 * t0001 * s21 - 9 / 2 * t0001 * s22 - 3 * t0111 * s20 + 9 / 2 * t0111 * s22 + 3 / 2 * (t0122 + 2 * t0212) * s20 - 3 / 2 * (t0122 + 2 * t0212) * s21) := by
  have n01 : B0 - B1 ≠ 0 := sub_ne_zero.2 h01
  have n10 : B1 - B0 ≠ 0 := sub_ne_zero.2 h01.symm
  have n02 : B0 - B2 ≠ 0 := sub_ne_zero.2 h02
  have n20 : B2 - B0 ≠ 0 := sub_ne_zero.2 h02.symm
  have n12 : B1 - B2 ≠ 0 := sub_ne_zero.2 h12
  have n21 : B2 - B1 ≠ 0 := sub_ne_zero.2 h12.symm
  rw [show B1 - B0 = -(B0 - B1) by ring, show B2 - B0 = -(B0 - B2) by ring, show B2 - B1 = -(B1 - B2) by ring] at *
  subst e1 e2 e3 e4 e5 e6 e7 e8 e9
  field_simp
  ring

section

variable (nvib nfreq : Nat) (rotcon primat freq : Vec ℝ) (wila : Mat ℝ) (zmat f3 : T3 ℝ)

/-- The even terms of the sextic part. -/
theorem raw_parts (h12 : ∀ i j k, f3 i j k = f3 j i k) (h23 : ∀ i j k, f3 i j k = f3 i k j) {τ : T4 ℝ} {c : Mat ℝ} {cc : T4 ℝ}
    (hτ : τ = makeTau nvib freq primat wila) (hc : c = cMat 3 nvib freq primat wila)
    (hcc : cc = ccTensor nvib 3 freq c zmat rotcon) :
    HasParts (rotorData nvib rotcon primat freq wila zmat f3).H6
      (3 / 16 * (∑ w ∈ Finset.range 3, τ w 0 0 0 ^ 2 / rotcon w) - 2 * (∑ i ∈ Finset.range nvib, freq i * cc i 0 0 0 ^ 2) +
        1 / 6 * tri nvib f3 (c · 0) (c · 0) (c · 0))
      (3 / 16 * (∑ w ∈ Finset.range 3, τ w 1 1 1 ^ 2 / rotcon w) - 2 * (∑ i ∈ Finset.range nvib, freq i * cc i 1 1 1 ^ 2) +
        1 / 6 * tri nvib f3 (c · 2) (c · 2) (c · 2))
      (3 / 16 * (∑ w ∈ Finset.range 3, τ w 2 2 2 ^ 2 / rotcon w) - 2 * (∑ i ∈ Finset.range nvib, freq i * cc i 2 2 2 ^ 2) +
        1 / 6 * tri nvib f3 (c · 5) (c · 5) (c · 5))
      (3 / 32 * (∑ w ∈ Finset.range 3, ((τ w 1 0 0 + 2 * τ w 0 1 0) ^ 2 +
          2 * τ w 0 0 0 * (τ w 0 1 1 + 2 * τ w 1 0 1)) / rotcon w) -
        (∑ i ∈ Finset.range nvib, freq i * (cc i 1 0 0 ^ 2 + 2 * cc i 0 0 0 * cc i 0 1 1)) +
        1 / 4 * (tri nvib f3 (c · 2) (c · 0) (c · 0) + 4 * tri nvib f3 (c · 1) (c · 1) (c · 0)))
      (3 / 32 * (∑ w ∈ Finset.range 3, ((τ w 2 0 0 + 2 * τ w 0 2 0) ^ 2 +
          2 * τ w 0 0 0 * (τ w 0 2 2 + 2 * τ w 2 0 2)) / rotcon w) -
        (∑ i ∈ Finset.range nvib, freq i * (cc i 2 0 0 ^ 2 + 2 * cc i 0 0 0 * cc i 0 2 2)) +
        1 / 4 * (tri nvib f3 (c · 5) (c · 0) (c · 0) + 4 * tri nvib f3 (c · 3) (c · 3) (c · 0)))
      (3 / 32 * (∑ w ∈ Finset.range 3, ((τ w 0 1 1 + 2 * τ w 1 0 1) ^ 2 +
          2 * τ w 1 1 1 * (τ w 1 0 0 + 2 * τ w 0 1 0)) / rotcon w) -
        (∑ i ∈ Finset.range nvib, freq i * (cc i 0 1 1 ^ 2 + 2 * cc i 1 1 1 * cc i 1 0 0)) +
        1 / 4 * (tri nvib f3 (c · 0) (c · 2) (c · 2) + 4 * tri nvib f3 (c · 1) (c · 1) (c · 2)))
      (3 / 32 * (∑ w ∈ Finset.range 3, ((τ w 2 1 1 + 2 * τ w 1 2 1) ^ 2 +
          2 * τ w 1 1 1 * (τ w 1 2 2 + 2 * τ w 2 1 2)) / rotcon w) -
        (∑ i ∈ Finset.range nvib, freq i * (cc i 2 1 1 ^ 2 + 2 * cc i 1 1 1 * cc i 1 2 2)) +
        1 / 4 * (tri nvib f3 (c · 5) (c · 2) (c · 2) + 4 * tri nvib f3 (c · 4) (c · 4) (c · 2)))
      (3 / 32 * (∑ w ∈ Finset.range 3, ((τ w 0 2 2 + 2 * τ w 2 0 2) ^ 2 +
          2 * τ w 2 2 2 * (τ w 2 0 0 + 2 * τ w 0 2 0)) / rotcon w) -
        (∑ i ∈ Finset.range nvib, freq i * (cc i 0 2 2 ^ 2 + 2 * cc i 2 2 2 * cc i 2 0 0)) +
        1 / 4 * (tri nvib f3 (c · 0) (c · 5) (c · 5) + 4 * tri nvib f3 (c · 3) (c · 3) (c · 5)))
      (3 / 32 * (∑ w ∈ Finset.range 3, ((τ w 1 2 2 + 2 * τ w 2 1 2) ^ 2 +
          2 * τ w 2 2 2 * (τ w 2 1 1 + 2 * τ w 1 2 1)) / rotcon w) -
        (∑ i ∈ Finset.range nvib, freq i * (cc i 1 2 2 ^ 2 + 2 * cc i 2 2 2 * cc i 2 1 1)) +
        1 / 4 * (tri nvib f3 (c · 2) (c · 5) (c · 5) + 4 * tri nvib f3 (c · 4) (c · 4) (c · 5)))
      (3 / 16 * (∑ w ∈ Finset.range 3, (2 * (τ w 0 1 2 + τ w 1 2 0 + τ w 2 0 1) ^ 2 +
          (τ w 0 1 1 + 2 * τ w 1 0 1) * (τ w 0 2 2 + 2 * τ w 2 0 2) +
          (τ w 1 2 2 + 2 * τ w 2 1 2) * (τ w 1 0 0 + 2 * τ w 0 1 0) +
          (τ w 2 0 0 + 2 * τ w 0 2 0) * (τ w 2 1 1 + 2 * τ w 1 2 1)) / rotcon w) -
        2 * (∑ i ∈ Finset.range nvib, freq i * (2 * cc i 2 1 0 ^ 2 + cc i 0 1 1 * cc i 0 2 2 +
          cc i 1 2 2 * cc i 1 0 0 + cc i 2 0 0 * cc i 2 1 1)) +
        1 / 2 * (tri nvib f3 (c · 0) (c · 2) (c · 5) + 2 * tri nvib f3 (c · 0) (c · 4) (c · 4) +
          2 * tri nvib f3 (c · 2) (c · 3) (c · 3) + 2 * tri nvib f3 (c · 5) (c · 1) (c · 1) +
          8 * tri nvib f3 (c · 4) (c · 3) (c · 1))) := by
  have hD := rotorData_tau nvib rotcon primat freq wila zmat f3
  have hS : TauSymm (rotorData nvib rotcon primat freq wila zmat f3).τ := hD ▸ tau_symm nvib freq primat wila
  have e1 := squares_parts (Finset.univ : Finset (Fin 3)) (fun w => 1 / rotcon w)
    (fun w => (rotorData nvib rotcon primat freq wila zmat f3).torque w) _ _ _ _ _ _ _ _ _ _ fun w _ =>
      torque_form _ hS w
  have e2 := squares_parts (Finset.range nvib) freq
    (fun i => (rotorData nvib rotcon primat freq wila zmat f3).coriolis i) _ _ _ _ _ _ _ _ _ _ fun i hi =>
      coriolis_form nvib rotcon primat freq wila zmat f3 hc hcc (Finset.mem_range.1 hi)
  have e3 := cubic_parts nvib f3 h12 h23 (fun i => (rotorData nvib rotcon primat freq wila zmat f3).shift i) c fun v hv =>
      shift_form nvib rotcon primat freq wila zmat f3 hc hv
  have e := ((e1.mul (3 / 16)).add (e2.mul (-2))).add (e3.mul (1 / 6))
  rw [raw_eq]
  rw [hD, ← hτ] at e
  simp only [sum3] at e
  convert e using 1
  · simp only [sum3]
    rfl
  all_goals
    simp only [Finset.sum_range_succ _ 2, Finset.sum_range_succ _ 1, Finset.sum_range_succ _ 0, Finset.sum_range_zero]
    simp only [Fin.val_zero, Fin.val_one, Fin.val_two, Fin.isValue]
    ring

/-- The odd terms of the quartic part account for the remaining terms of the tensor. -/
theorem scc_skew (hn6 : nfreq ≠ 6) (hB : Apart rotcon) (h12 : ∀ i j k, f3 i j k = f3 j i k)
    (h23 : ∀ i j k, f3 i j k = f3 i k j) :
    ∃ s t, SkewGen 3 s ∧ SkewGen 5 t ∧ Transforms s t (rotorH rotcon) (rotorData nvib rotcon primat freq wila zmat f3).H4
      (rotorData nvib rotcon primat freq wila zmat f3).H6 (quarticH (tau4 nvib freq primat wila))
      (sexticH (sexticScc .asymmTop nvib nfreq rotcon primat freq wila zmat f3)) := by
  obtain ⟨τ, hτ⟩ : ∃ τ, τ = makeTau nvib freq primat wila := ⟨_, rfl⟩
  obtain ⟨c, hc⟩ : ∃ c, c = cMat 3 nvib freq primat wila := ⟨_, rfl⟩
  obtain ⟨cc, hcc⟩ : ∃ cc, cc = ccTensor nvib 3 freq c zmat rotcon := ⟨_, rfl⟩
  obtain ⟨p, hp⟩ : ∃ p : SccIn ℝ, p = ⟨nvib, τ, rotcon, freq, cc, f3, c⟩ := ⟨_, rfl⟩
  have hφ : sexticScc .asymmTop nvib nfreq rotcon primat freq wila zmat f3 = scc p .asymmTop 3 nfreq := by
    rw [hp, hcc, hc, hτ]; rfl
  have hS : TauSymm τ := hτ ▸ tau_symm nvib freq primat wila
  have hD := rotorData_tau nvib rotcon primat freq wila zmat f3
  rw [← hτ] at hD
  have h6 := raw_parts nvib rotcon primat freq wila zmat f3 h12 h23 hτ hc hcc
  have n01 := apart_ne hB.1
  have n02 := apart_ne hB.2.1
  have n12 := apart_ne hB.2.2
  have hcs : ∀ i < nvib, ∀ x < 3, ∀ y < 3, x ≠ y → cc i x x y = cc i y x x := by
    intro i hi x hx y hy hxy
    have := (cc_values freq c zmat rotcon hi).2.1 x hx y hy hxy
    rw [hcc, this.1, this.2]
  have hq : ∀ y x, y < 3 → x < 3 → y ≠ x → ∑ i ∈ Finset.range nvib, freq i * (cc i y x x ^ 2 + 2 * cc i x x x * cc i y y x) =
      ∑ i ∈ Finset.range nvib, freq i * (cc i y x x ^ 2 + 2 * cc i x x x * cc i x y y) := by
    intro y x hy hx hyx
    exact Finset.sum_congr rfl fun i hi => by rw [hcs i (Finset.mem_range.1 hi) y hy x hx hyx]
  have hq3 : ∑ i ∈ Finset.range nvib, freq i * (2 * cc i 2 1 0 ^ 2 + cc i 1 1 0 * cc i 2 2 0 +
        cc i 2 2 1 * cc i 1 0 0 + cc i 2 0 0 * cc i 2 1 1) =
      ∑ i ∈ Finset.range nvib, freq i * (2 * cc i 2 1 0 ^ 2 + cc i 0 1 1 * cc i 0 2 2 +
        cc i 1 2 2 * cc i 1 0 0 + cc i 2 0 0 * cc i 2 1 1) :=
    Finset.sum_congr rfl fun i hi => by
      rw [hcs i (Finset.mem_range.1 hi) 1 (by norm_num) 0 (by norm_num) (by norm_num),
        hcs i (Finset.mem_range.1 hi) 2 (by norm_num) 0 (by norm_num) (by norm_num),
        hcs i (Finset.mem_range.1 hi) 2 (by norm_num) 1 (by norm_num) (by norm_num)]
  have hB' : Apart p.rotcon := by rw [hp]; exact hB
  obtain ⟨v1, v2, v3⟩ := scc_values p hn6
  rw [quartic_split _ (hD ▸ hS) (tau4 nvib freq primat wila), hφ, sexticH_eq, hD, v1 0 (by norm_num), v1 1 (by norm_num),
    v1 2 (by norm_num), v2 0 (by norm_num) 1 (by norm_num) (by norm_num), v2 0 (by norm_num) 2 (by norm_num) (by norm_num),
    v2 1 (by norm_num) 0 (by norm_num) (by norm_num), v2 1 (by norm_num) 2 (by norm_num) (by norm_num),
    v2 2 (by norm_num) 0 (by norm_num) (by norm_num), v2 2 (by norm_num) 1 (by norm_num) (by norm_num), v3,
    sccDiag_val p hB' (x := 0) (y := 1) (z := 2) (s := 0) (by simp), sccDiag_val p hB' (x := 1) (y := 0) (z := 2) (s := 2) (by simp),
    sccDiag_val p hB' (x := 2) (y := 0) (z := 1) (s := 5) (by simp),
    sccPair_val p hB' (x := 0) (y := 1) (z := 2) (s := 0) (t := 2) (u := 1) (by simp),
    sccPair_val p hB' (x := 0) (y := 2) (z := 1) (s := 0) (t := 5) (u := 3) (by simp),
    sccPair_val p hB' (x := 1) (y := 0) (z := 2) (s := 2) (t := 0) (u := 1) (by simp),
    sccPair_val p hB' (x := 1) (y := 2) (z := 0) (s := 2) (t := 5) (u := 4) (by simp),
    sccPair_val p hB' (x := 2) (y := 0) (z := 1) (s := 5) (t := 0) (u := 3) (by simp),
    sccPair_val p hB' (x := 2) (y := 1) (z := 0) (s := 5) (t := 2) (u := 4) (by simp), sccXyz_val p hB', hp]
  · refine skew_reduce rotcon n01 n02 n12 _ _ _ _ _ _ _ _ _ _ _ _ _ _ _ _ _ _ _ _ _ _ _ _ _ _ _ _ _ _ _ h6 ?_
    intro s00 s01 s02 s10 s11 s12 s20 s21 s22 e1 e2 e3 e4 e5 e6 e7 e8 e9
    simp only
    rw [hq 1 0 (by norm_num) (by norm_num) (by norm_num), hq 2 0 (by norm_num) (by norm_num) (by norm_num),
      hq 0 1 (by norm_num) (by norm_num) (by norm_num), hq 2 1 (by norm_num) (by norm_num) (by norm_num),
      hq 0 2 (by norm_num) (by norm_num) (by norm_num), hq 1 2 (by norm_num) (by norm_num) (by norm_num), hq3]
    have S3 : ∀ g : ℕ → ℝ, ∑ w ∈ Finset.range 3, g w = g 0 + g 1 + g 2 := fun g => by
      simp [Finset.sum_range_succ]
    refine ⟨?_, ?_, ?_, ?_, ?_, ?_, ?_, ?_, ?_, ?_⟩
    · have key := gap_d0 n01 n02 n12 e1 e2 e3 e4 e5 e6 e7 e8 e9
      simp only [S3, tau_canon hS]
      linear_combination key
    · have key := gap_d1 n01 n02 n12 e1 e2 e3 e4 e5 e6 e7 e8 e9
      simp only [S3, tau_canon hS]
      linear_combination key
    · have key := gap_d2 n01 n02 n12 e1 e2 e3 e4 e5 e6 e7 e8 e9
      simp only [S3, tau_canon hS]
      linear_combination key
    · have key := gap_p01 n01 n02 n12 e1 e2 e3 e4 e5 e6 e7 e8 e9
      simp only [S3, tau_canon hS]
      linear_combination key
    · have key := gap_p02 n01 n02 n12 e1 e2 e3 e4 e5 e6 e7 e8 e9
      simp only [S3, tau_canon hS]
      linear_combination key
    · have key := gap_p10 n01 n02 n12 e1 e2 e3 e4 e5 e6 e7 e8 e9
      simp only [S3, tau_canon hS]
      linear_combination key
    · have key := gap_p12 n01 n02 n12 e1 e2 e3 e4 e5 e6 e7 e8 e9
      simp only [S3, tau_canon hS]
      linear_combination key
    · have key := gap_p20 n01 n02 n12 e1 e2 e3 e4 e5 e6 e7 e8 e9
      simp only [S3, tau_canon hS]
      linear_combination key
    · have key := gap_p21 n01 n02 n12 e1 e2 e3 e4 e5 e6 e7 e8 e9
      simp only [S3, tau_canon hS]
      linear_combination key
    · have key := gap_q n01 n02 n12 e1 e2 e3 e4 e5 e6 e7 e8 e9
      simp only [S3, tau_canon hS]
      linear_combination key
  all_goals
    simp only [tau4, tauPrime, hD, lit_real, ← hτ, tau_canon hS, ne_eq, not_true_eq_false, if_false, not_false_eq_true, if_true,
      zero_ne_one, one_ne_zero, OfNat.ofNat_ne_zero, OfNat.zero_ne_ofNat, OfNat.ofNat_ne_one, OfNat.one_ne_ofNat]
    first | (norm_num; done) | (norm_num; ring) | skip

end

end Verif
