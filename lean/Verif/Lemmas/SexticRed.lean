import Verif.Lemmas.Sextic
import Verif.Props.Sextic

/-! The fields computed by `Quartic::new` and `Sextic::new` for asymmetric tops, in terms of the coefficients
of the polynomials they describe. -/

namespace Verif

open MvPolynomial

theorem sum3 {M : Type} [AddCommMonoid M] (f : Fin 3 → M) : ∑ i : Fin 3, f i = f 0 + f 1 + f 2 :=
  Fin.sum_univ_three f

theorem rotorH_cyl (B : Vec ℝ) (h : B 1 ≠ B 2) : rotorH B =
    cyl2 1 2 0 ((B 1 + B 2) / 2) ((B 1 - B 2) / 4) ((2 * B 0 - B 1 - B 2) / (B 1 - B 2)) := by
  have h' : B 1 - B 2 ≠ 0 := sub_ne_zero.2 h
  refine MvPolynomial.funext fun v => ?_
  simp only [rotorH, cyl2, jj, re2, sum3, map_add, map_sub, map_mul, map_pow, eval_C, eval_X, map_ofNat]
  simp only [Fin.val_zero, Fin.val_one, Fin.val_two, Fin.isValue]
  field_simp
  ring

/-- The quartic in the squares in cylindrical form, with the coefficients of /repo/spectro/src/quartic.rs:234-239. -/
theorem quarticH_cyl (t : Mat ℝ) (hs : ∀ i j, t i j = t j i) (t400 t220 t040 t202 t022 t004 : ℝ)
    (h1 : t400 = (3 * t 1 1 + 3 * t 2 2 + 2 * t 1 2) / 8) (h2 : t220 = t 1 0 + t 2 0 - 2 * t400)
    (h3 : t040 = t 0 0 - t220 - t400) (h4 : t202 = (t 1 1 - t 2 2) / 4)
    (h5 : t022 = (t 1 0 - t 2 0) / 2 - t202) (h6 : t004 = (t 1 1 + t 2 2 - 2 * t 1 2) / 16) :
    quarticH t = cyl4 1 2 0 t400 t220 t040 t202 t022 t004 := by
  subst h1 h2 h3 h4 h5 h6
  refine MvPolynomial.funext fun v => ?_
  simp only [quarticH, cyl4, jj, re2, re4, sum3, map_add, map_sub, map_mul, map_pow, eval_C, eval_X, map_ofNat]
  simp only [Fin.val_zero, Fin.val_one, Fin.val_two, Fin.isValue]
  rw [hs 0 1, hs 0 2, hs 2 1]
  ring

/-- The sextic in the squares in cylindrical form. -/
theorem sexticH_cyl (φ : T3 ℝ) (f600 f420 f240 f060 f402 f222 f042 f204 f024 f006 : ℝ)
    (h1 : f600 = 5 * (φ 1 1 1 + φ 2 2 2) / 16 + (φ 2 1 1 + φ 1 2 2) / 8)
    (h2 : f420 = 3 * (φ 0 1 1 + φ 0 2 2) / 4 + φ 0 1 2 / 4 - 3 * f600)
    (h3 : f240 = φ 1 0 0 + φ 2 0 0 - 2 * f420 - 3 * f600)
    (h4 : f060 = φ 0 0 0 - f240 - f420 - f600)
    (h5 : f402 = 15 * (φ 1 1 1 - φ 2 2 2) / 64 + (φ 2 1 1 - φ 1 2 2) / 32)
    (h6 : f222 = (φ 0 1 1 - φ 0 2 2) / 2 - 2 * f402)
    (h7 : f042 = (φ 1 0 0 - φ 2 0 0) / 2 - f222 - f402)
    (h8 : f204 = 3 * (φ 1 1 1 + φ 2 2 2) / 32 - (φ 2 1 1 + φ 1 2 2) / 16)
    (h9 : f024 = (φ 0 1 1 + φ 0 2 2 - φ 0 1 2) / 8 - f204)
    (h10 : f006 = (φ 1 1 1 - φ 2 2 2) / 64 - (φ 2 1 1 - φ 1 2 2) / 32) :
    sexticH φ = cyl6 1 2 0 f600 f420 f240 f060 f402 f222 f042 f204 f024 f006 := by
  subst h1 h2 h3 h4 h5 h6 h7 h8 h9 h10
  refine MvPolynomial.funext fun v => ?_
  simp only [sexticH, cyl6, jj, re2, re4, re6, sum3, map_add, map_sub, map_mul, map_pow, eval_C, eval_X, map_ofNat]
  simp only [Fin.val_zero, Fin.val_one, Fin.val_two, Fin.isValue, Fin.reduceEq, if_true, if_false, map_mul, map_pow,
    eval_C, eval_X, map_ofNat, map_zero]
  ring

/-- `τ'` over four, the matrix the quartic constants are made of. -/
noncomputable def tau4 (nvib : Nat) (freq primat : Vec ℝ) (wila : Mat ℝ) : Mat ℝ := fun i j =>
  tauPrime (makeTau nvib freq primat wila) i j / 4

/-- The sextic constants of an asymmetric top in terms of the coefficients of the quartic and sextic
polynomials. -/
theorem sextic_asymm (nvib nfreq : Nat) (rotcon primat freq : Vec ℝ) (wila : Mat ℝ) (zmat f3 : T3 ℝ) :
    let S := Sextic.new .asymmTop nvib nfreq rotcon primat freq wila zmat f3
    let φ := sexticScc .asymmTop nvib nfreq rotcon primat freq wila zmat f3
    let t := tau4 nvib freq primat wila
    ∃ t400 t220 t040 t202 t022 t004 f600 f420 f240 f060 f402 f222 f042 f204 f024 f006 : ℝ,
      t400 = (3 * t 1 1 + 3 * t 2 2 + 2 * t 1 2) / 8 ∧ t220 = t 1 0 + t 2 0 - 2 * t400 ∧
      t040 = t 0 0 - t220 - t400 ∧ t202 = (t 1 1 - t 2 2) / 4 ∧ t022 = (t 1 0 - t 2 0) / 2 - t202 ∧
      t004 = (t 1 1 + t 2 2 - 2 * t 1 2) / 16 ∧
      f600 = 5 * (φ 1 1 1 + φ 2 2 2) / 16 + (φ 2 1 1 + φ 1 2 2) / 8 ∧
      f420 = 3 * (φ 0 1 1 + φ 0 2 2) / 4 + φ 0 1 2 / 4 - 3 * f600 ∧
      f240 = φ 1 0 0 + φ 2 0 0 - 2 * f420 - 3 * f600 ∧ f060 = φ 0 0 0 - f240 - f420 - f600 ∧
      f402 = 15 * (φ 1 1 1 - φ 2 2 2) / 64 + (φ 2 1 1 - φ 1 2 2) / 32 ∧
      f222 = (φ 0 1 1 - φ 0 2 2) / 2 - 2 * f402 ∧ f042 = (φ 1 0 0 - φ 2 0 0) / 2 - f222 - f402 ∧
      f204 = 3 * (φ 1 1 1 + φ 2 2 2) / 32 - (φ 2 1 1 + φ 1 2 2) / 16 ∧
      f024 = (φ 0 1 1 + φ 0 2 2 - φ 0 1 2) / 8 - f204 ∧
      f006 = (φ 1 1 1 - φ 2 2 2) / 64 - (φ 2 1 1 - φ 1 2 2) / 32 ∧
      ∃ σ β b020 μ ν l : ℝ, σ = (2 * rotcon 0 - rotcon 1 - rotcon 2) / (rotcon 1 - rotcon 2) ∧
      β = (rotcon 1 - rotcon 2) / 4 ∧
      b020 = rotcon 0 - ((rotcon 1 + rotcon 2) / 2 - 4 * t004) + 6 * t004 ∧
      S.phij = f600 + 2 * f204 ∧
      S.phijk = f420 - 12 * f204 + 2 * f024 + 16 * σ * f006 + 8 * t022 * t004 / β ∧
      S.phikj = f240 + 10 * f420 / 3 - 30 * f204 - 10 * S.phijk / 3 ∧
      S.phik = f060 - 7 * f420 / 3 + 28 * f204 + 7 * S.phijk / 3 ∧
      S.sphij = f402 + f006 ∧
      S.sphijk = f222 + 4 * σ * f204 - 10 * f006 + 2 * (t220 - 2 * σ * t202 - 4 * t004) * t004 / β ∧
      S.sphik = f042 + 4 * σ * f024 / 3 + (32 * σ * σ / 3 + 9) * f006 +
        4 * (t040 + σ * t022 / 3 - 2 * (σ * σ - 2) * t004) * t004 / β ∧
      μ = (σ * f042 - 9 * f024 / 8 + (-2 * σ * t040 + (σ * σ + 3) * t022 - 5 * σ * t004) * t022 / b020) /
        (2 * σ * σ + 27 / 16) ∧
      ν = 3 * μ / (16 * σ) + f024 / (8 * σ) + t004 * t022 / b020 ∧
      l = 5 * ν / σ + f222 / (σ * 2) + (-t220 / (σ * 2) + t202 - t022 / (σ * σ) - 2 * t004 / σ) * t022 / b020 ∧
      S.hj = f600 - l ∧ S.hjk = f420 + 6 * l - 3 * μ ∧ S.hkj = f240 - 5 * l + 10 * μ ∧
      S.hk = f060 - 7 * μ ∧ S.h1 = f402 - ν ∧ S.h2 = f204 + l / 2 ∧ S.h3 = f006 + ν := by
  intro S φ t
  have e00 : ∀ P : Mat ℝ, quarticT 3 (princCart 0).1 P 0 0 = P 1 1 / 4 := fun P => by
    rw [show (4 : ℝ) = Arith.lit 4.0 by rw [lit_real]; norm_num]; rfl
  have e11 : ∀ P : Mat ℝ, quarticT 3 (princCart 0).1 P 1 1 = P 2 2 / 4 := fun P => by
    rw [show (4 : ℝ) = Arith.lit 4.0 by rw [lit_real]; norm_num]; rfl
  have e22 : ∀ P : Mat ℝ, quarticT 3 (princCart 0).1 P 2 2 = P 0 0 / 4 := fun P => by
    rw [show (4 : ℝ) = Arith.lit 4.0 by rw [lit_real]; norm_num]; rfl
  have e01 : ∀ P : Mat ℝ, quarticT 3 (princCart 0).1 P 0 1 = P 1 2 / 4 := fun P => by
    rw [show (4 : ℝ) = Arith.lit 4.0 by rw [lit_real]; norm_num]; rfl
  have e02 : ∀ P : Mat ℝ, quarticT 3 (princCart 0).1 P 0 2 = P 1 0 / 4 := fun P => by
    rw [show (4 : ℝ) = Arith.lit 4.0 by rw [lit_real]; norm_num]; rfl
  have e12 : ∀ P : Mat ℝ, quarticT 3 (princCart 0).1 P 1 2 = P 2 0 / 4 := fun P => by
    rw [show (4 : ℝ) = Arith.lit 4.0 by rw [lit_real]; norm_num]; rfl
  have hd0 : (princCart 0).2 0 = 1 := rfl
  have hd1 : (princCart 0).2 1 = 2 := rfl
  have hd2 : (princCart 0).2 2 = 0 := rfl
  have hφ : sexticScc .asymmTop nvib nfreq rotcon primat freq wila zmat f3 = φ := rfl
  have hS : S = Sextic.new .asymmTop nvib nfreq rotcon primat freq wila zmat f3 := rfl
  unfold Sextic.new at hS
  extract_lets maxcor taucpm dflt irep ic id t' phi t400 t220 t040 t202 t022 t004 b002 f600 f420 f240 f060 f402 f222
    f042 f204 f024 f006 asym ids rkappa bo sigma phijk ret id' b200 b020 div mu nu lamda at hS
  rw [if_neg (by decide), if_neg (by decide)] at hS
  have t00 : t' 0 0 = t 1 1 := e00 _
  have t11 : t' 1 1 = t 2 2 := e11 _
  have t22 : t' 2 2 = t 0 0 := e22 _
  have t01 : t' 0 1 = t 1 2 := e01 _
  have t02 : t' 0 2 = t 1 0 := e02 _
  have t12 : t' 1 2 = t 2 0 := e12 _
  have hret : ret = _ := if_pos (show asym = true from rfl)
  have hsig : sigma = _ := if_pos (show asym = true from rfl)
  have hid0 : id 0 = 1 := rfl
  have hid1 : id 1 = 2 := rfl
  have hid2 : id 2 = 0 := rfl
  have hid0' : id' 0 = 1 := rfl
  have hid1' : id' 1 = 2 := rfl
  have hid2' : id' 2 = 0 := rfl
  have q000 : phi 0 0 0 = φ 1 1 1 := rfl
  have q111 : phi 1 1 1 = φ 2 2 2 := rfl
  have q222 : phi 2 2 2 = φ 0 0 0 := rfl
  have q001 : phi 0 0 1 = φ 2 1 1 := rfl
  have q110 : phi 1 1 0 = φ 1 2 2 := rfl
  have q002 : phi 0 0 2 = φ 0 1 1 := rfl
  have q112 : phi 1 1 2 = φ 0 2 2 := rfl
  have q220 : phi 2 2 0 = φ 1 0 0 := rfl
  have q221 : phi 2 2 1 = φ 2 0 0 := rfl
  have q012 : phi 0 1 2 = φ 0 1 2 := rfl
  refine ⟨t400, t220, t040, t202, t022, t004, f600, f420, f240, f060, f402, f222, f042, f204, f024, f006,
    ?_, ?_, ?_, ?_, ?_, ?_, ?_, ?_, ?_, ?_, ?_, ?_, ?_, ?_, ?_, ?_,
    sigma, b002, b020, mu, nu, lamda, ?_, ?_, ?_, ?_, ?_, ?_, ?_, ?_, ?_, ?_, ?_, ?_, ?_, ?_, ?_, ?_, ?_, ?_, ?_, ?_⟩
  · simp only [t400, t00, t11, t01, lit_real]; push_cast; norm_num only
  · simp only [t220, t02, t12, lit_real]; push_cast; norm_num only
  · simp only [t040, t22]
  · simp only [t202, t00, t11, lit_real]; push_cast; norm_num only
  · simp only [t022, t02, t12, lit_real]; push_cast; norm_num only
  · simp only [t004, t00, t11, t01, lit_real]; push_cast; norm_num only
  · simp only [f600, q000, q111, q001, q110, lit_real]; push_cast; norm_num only
  · simp only [f420, q002, q112, q012, lit_real]; push_cast; norm_num only
  · simp only [f240, q220, q221, lit_real]; push_cast; norm_num only
  · simp only [f060, q222]
  · simp only [f402, q000, q111, q001, q110, lit_real]; push_cast; norm_num only
  · simp only [f222, q002, q112, lit_real]; push_cast; norm_num only
  · simp only [f042, q220, q221, lit_real]; push_cast; norm_num only
  · simp only [f204, q000, q111, q001, q110, lit_real]; push_cast; norm_num only
  · simp only [f024, q002, q112, q012, lit_real]; push_cast; norm_num only
  · simp only [f006, q000, q111, q001, q110, lit_real]; push_cast; norm_num only
  · rw [hsig]; simp only [hid0, hid1, hid2, lit_real]; push_cast; norm_num only
  · simp only [b002, hid0, hid1, lit_real]; push_cast; norm_num only; ring
  · simp only [b020, b200, hid0', hid1', hid2', lit_real]; push_cast; norm_num only; ring
  · rw [hS]; show ret.phij = _; rw [hret]; simp only [lit_real]; push_cast; norm_num only
  · rw [hS]; show ret.phijk = _; rw [hret]; simp only [phijk, lit_real]; push_cast; norm_num only
  · rw [hS]; show ret.phikj = f240 + 10 * f420 / 3 - 30 * f204 - 10 * ret.phijk / 3; rw [hret]; simp only [lit_real]; push_cast; norm_num only
  · rw [hS]; show ret.phik = f060 - 7 * f420 / 3 + 28 * f204 + 7 * ret.phijk / 3; rw [hret]; simp only [lit_real]; push_cast; norm_num only
  · rw [hS]; show ret.sphij = _; rw [hret]
  · rw [hS]; show ret.sphijk = _; rw [hret]; simp only [lit_real]; push_cast; norm_num only
  · rw [hS]; show ret.sphik = _; rw [hret]; simp only [lit_real]; push_cast; norm_num only
  · simp only [mu, div, lit_real]; push_cast; norm_num only
  · simp only [nu, lit_real]; push_cast; norm_num only
  · simp only [lamda, lit_real]; push_cast; norm_num only
  · rw [hS]
  · rw [hS]; simp only [lit_real]; push_cast; norm_num only
  · rw [hS]; simp only [lit_real]; push_cast; norm_num only
  · rw [hS]; simp only [lit_real]; push_cast; norm_num only
  · rw [hS]
  · rw [hS]; simp only [lit_real]; push_cast; norm_num only
  · rw [hS]

end Verif
