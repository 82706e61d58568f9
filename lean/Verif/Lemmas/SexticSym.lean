import Verif.Lemmas.SexticFlat

/-! The sextic coefficient tensor of symmetric tops. -/

namespace Verif

open MvPolynomial

theorem gapy_p01 {B0 B1 B2 a10 a11 a12 s10 s11 s12 : ℝ} (n02 : B0 - B2 ≠ 0)
    (e4 : s10 = -a10 / (2 * (B0 - B2))) (e5 : s12 = -a12 / (2 * (B0 - B2)))
    (e6 : s11 = (-a11 - 2 * (2 * (B2 - B1)) * s10 - 2 * (2 * (B1 - B0)) * s12) / (3 * (2 * (B0 - B2)))) :
    a10 * ((B0 - B2) * a11 + (B0 - B1) * (a12 - a10)) / (4 * (B0 - B2) ^ 2) =
      1 / 2 * (a10 * s10 - 3 / 2 * a10 * s11 - 1 / 2 * a11 * s10) := by
  subst e4 e5 e6
  field_simp
  ring

theorem gapy_p02 {B0 B2 a10 a12 s10 s12 : ℝ} (n02 : B0 - B2 ≠ 0)
    (e4 : s10 = -a10 / (2 * (B0 - B2))) (e5 : s12 = -a12 / (2 * (B0 - B2))) :
    (4 * a12 - 3 * a10) * a10 / (8 * (B0 - B2)) = 1 / 2 * (3 / 2 * a10 * s10 - 1 / 2 * a10 * s12 - 3 / 2 * a12 * s10) := by
  subst e4 e5
  field_simp
  ring

theorem gapy_p10 {B0 B1 B2 a10 a11 a12 s10 s11 s12 : ℝ} (n02 : B0 - B2 ≠ 0)
    (e4 : s10 = -a10 / (2 * (B0 - B2))) (e5 : s12 = -a12 / (2 * (B0 - B2)))
    (e6 : s11 = (-a11 - 2 * (2 * (B2 - B1)) * s10 - 2 * (2 * (B1 - B0)) * s12) / (3 * (2 * (B0 - B2)))) :
    a11 * ((B0 - B2) * a11 + 2 * (B1 - B0) * (a10 - a12)) / (8 * (B0 - B2) ^ 2) =
      1 / 2 * (a11 * s10 - 3 / 2 * a11 * s11) := by
  subst e4 e5 e6
  field_simp
  ring

theorem gapy_p12 {B0 B1 B2 a10 a11 a12 s10 s11 s12 : ℝ} (n02 : B0 - B2 ≠ 0)
    (e4 : s10 = -a10 / (2 * (B0 - B2))) (e5 : s12 = -a12 / (2 * (B0 - B2)))
    (e6 : s11 = (-a11 - 2 * (2 * (B2 - B1)) * s10 - 2 * (2 * (B1 - B0)) * s12) / (3 * (2 * (B0 - B2)))) :
    a11 * ((B2 - B0) * a11 + 2 * (B1 - B2) * (a12 - a10)) / (8 * (B2 - B0) ^ 2) =
      1 / 2 * (3 / 2 * a11 * s11 - a11 * s12) := by
  subst e4 e5 e6
  rw [show B2 - B0 = -(B0 - B2) by ring]
  field_simp
  ring

theorem gapy_p20 {B0 B2 a10 a12 s10 s12 : ℝ} (n02 : B0 - B2 ≠ 0)
    (e4 : s10 = -a10 / (2 * (B0 - B2))) (e5 : s12 = -a12 / (2 * (B0 - B2))) :
    (4 * a10 - 3 * a12) * a12 / (8 * (B2 - B0)) = 1 / 2 * (3 / 2 * a10 * s12 + 1 / 2 * a12 * s10 - 3 / 2 * a12 * s12) := by
  subst e4 e5
  rw [show B2 - B0 = -(B0 - B2) by ring]
  field_simp
  ring

theorem gapy_p21 {B0 B1 B2 a10 a11 a12 s10 s11 s12 : ℝ} (n02 : B0 - B2 ≠ 0)
    (e4 : s10 = -a10 / (2 * (B0 - B2))) (e5 : s12 = -a12 / (2 * (B0 - B2)))
    (e6 : s11 = (-a11 - 2 * (2 * (B2 - B1)) * s10 - 2 * (2 * (B1 - B0)) * s12) / (3 * (2 * (B0 - B2)))) :
    a12 * ((B2 - B0) * a11 + (B2 - B1) * (a10 - a12)) / (4 * (B2 - B0) ^ 2) =
      1 / 2 * (1 / 2 * a11 * s12 + 3 / 2 * a12 * s11 - a12 * s12) := by
  subst e4 e5 e6
  rw [show B2 - B0 = -(B0 - B2) by ring]
  field_simp
  ring

theorem gapy_q {B0 B1 B2 a10 a11 a12 s10 s11 s12 : ℝ} (n02 : B0 - B2 ≠ 0)
    (e4 : s10 = -a10 / (2 * (B0 - B2))) (e5 : s12 = -a12 / (2 * (B0 - B2)))
    (e6 : s11 = (-a11 - 2 * (2 * (B2 - B1)) * s10 - 2 * (2 * (B1 - B0)) * s12) / (3 * (2 * (B0 - B2)))) :
    3 * (a12 - a10) * ((B0 - B1) * a12 + (B1 - B2) * a10) / (4 * (B2 - B0) ^ 2) =
      1 / 2 * (9 / 2 * a10 * s11 - 3 * a10 * s12 - 3 / 2 * a11 * s10 + 3 / 2 * a11 * s12 + 3 * a12 * s10 -
        9 / 2 * a12 * s11) := by
  subst e4 e5 e6
  rw [show B2 - B0 = -(B0 - B2) by ring]
  field_simp
  ring

section

variable {rotor : Rotor} (nvib nfreq : Nat) (rotcon primat freq : Vec ℝ) (wila : Mat ℝ) (zmat f3 : T3 ℝ)

/-- The tensor of a molecule with a plane of symmetry in terms of the even sextic terms and the transformation. -/
theorem scc_flat (hr : rotor = .oblateSymmTop ∨ rotor = .prolateSymmTop) (hn6 : nfreq ≠ 6)
    (h02 : 1 / 200 < |rotcon 0 - rotcon 2|) (h12' : 1 / 200 < |rotcon 1 - rotcon 2|)
    (h12 : ∀ i j k, f3 i j k = f3 j i k) (h23 : ∀ i j k, f3 i j k = f3 i k j) (hF : Flat (makeTau nvib freq primat wila))
    {a10 a11 a12 s10 s11 s12 : ℝ} (ha0 : a10 = makeTau nvib freq primat wila 0 0 0 2)
    (ha1 : a11 = makeTau nvib freq primat wila 0 2 1 1 + 2 * makeTau nvib freq primat wila 0 1 1 2)
    (ha2 : a12 = makeTau nvib freq primat wila 0 2 2 2)
    (e4 : s10 = -a10 / (2 * (rotcon 0 - rotcon 2))) (e5 : s12 = -a12 / (2 * (rotcon 0 - rotcon 2)))
    (e6 : s11 = (-a11 - 2 * (2 * (rotcon 2 - rotcon 1)) * s10 - 2 * (2 * (rotcon 1 - rotcon 0)) * s12) /
      (3 * (2 * (rotcon 0 - rotcon 2)))) :
    let φ := sexticScc rotor nvib nfreq rotcon primat freq wila zmat f3
    ∃ d0 d1 d2 p01 p02 p10 p12 p20 p21 q,
      HasParts (rotorData nvib rotcon primat freq wila zmat f3).H6 d0 d1 d2 p01 p02 p10 p12 p20 p21 q ∧
      φ 0 0 0 = d0 + 1 / 2 * (-a10 * s10) ∧ φ 1 1 1 = d1 ∧ φ 2 2 2 = d2 + 1 / 2 * (a12 * s12) ∧
      φ 1 0 0 = p01 + 1 / 2 * (a10 * s10 - 3 / 2 * a10 * s11 - 1 / 2 * a11 * s10) ∧
      φ 2 0 0 = p02 + 1 / 2 * (3 / 2 * a10 * s10 - 1 / 2 * a10 * s12 - 3 / 2 * a12 * s10) ∧
      φ 0 1 1 = p10 + 1 / 2 * (a11 * s10 - 3 / 2 * a11 * s11) ∧ φ 2 1 1 = p12 + 1 / 2 * (3 / 2 * a11 * s11 - a11 * s12) ∧
      φ 0 2 2 = p20 + 1 / 2 * (3 / 2 * a10 * s12 + 1 / 2 * a12 * s10 - 3 / 2 * a12 * s12) ∧
      φ 1 2 2 = p21 + 1 / 2 * (1 / 2 * a11 * s12 + 3 / 2 * a12 * s11 - a12 * s12) ∧
      φ 0 1 2 = q + 1 / 2 * (9 / 2 * a10 * s11 - 3 * a10 * s12 - 3 / 2 * a11 * s10 + 3 / 2 * a11 * s12 + 3 * a12 * s10 -
        9 / 2 * a12 * s11) := by
  intro φ
  obtain ⟨τ, hτ⟩ : ∃ τ, τ = makeTau nvib freq primat wila := ⟨_, rfl⟩
  obtain ⟨c, hc⟩ : ∃ c, c = cMat 3 nvib freq primat wila := ⟨_, rfl⟩
  obtain ⟨cc, hcc⟩ : ∃ cc, cc = ccTensor nvib 3 freq c zmat rotcon := ⟨_, rfl⟩
  obtain ⟨p, hp⟩ : ∃ p : SccIn ℝ, p = ⟨nvib, τ, rotcon, freq, cc, f3, c⟩ := ⟨_, rfl⟩
  have hφ : φ = scc p .asymmTop 3 nfreq := by
    rw [← scc_values_top p hr, hp, hcc, hc, hτ]
    rcases hr with rfl | rfl <;> rfl
  have hS : TauSymm τ := hτ ▸ tau_symm nvib freq primat wila
  have h6 := raw_parts nvib rotcon primat freq wila zmat f3 h12 h23 hτ hc hcc
  have n02 : rotcon 0 - rotcon 2 ≠ 0 := sub_ne_zero.2 (apart_ne h02)
  rw [← hτ] at hF ha0 ha1 ha2
  have hcs : ∀ i < nvib, ∀ x < 3, ∀ y < 3, x ≠ y → cc i x x y = cc i y x x := by
    intro i hi x hx y hy hxy
    have := (cc_values freq c zmat rotcon hi).2.1 x hx y hy hxy
    rw [hcc, this.1, this.2]
  have hq : ∀ y x, y < 3 → x < 3 → y ≠ x → ∑ i ∈ Finset.range nvib, freq i * (cc i y x x ^ 2 + 2 * cc i x x x * cc i y y x) =
      ∑ i ∈ Finset.range nvib, freq i * (cc i y x x ^ 2 + 2 * cc i x x x * cc i x y y) := by
    intro y x hy hx hyx
    exact Finset.sum_congr rfl fun i hi => by rw [hcs i (Finset.mem_range.1 hi) y hy x hx hyx]
  have hq3 : ∑ i ∈ Finset.range nvib, freq i * (2 * cc i 2 1 0 ^ 2 + cc i 1 1 0 * cc i 2 2 0 +
        cc i 2 2 1 * cc i 1 0 0 + cc i 2 0 0 * cc i 2 1 1) =
      ∑ i ∈ Finset.range nvib, freq i * (2 * cc i 2 1 0 ^ 2 + cc i 0 1 1 * cc i 0 2 2 +
        cc i 1 2 2 * cc i 1 0 0 + cc i 2 0 0 * cc i 2 1 1) :=
    Finset.sum_congr rfl fun i hi => by
      rw [hcs i (Finset.mem_range.1 hi) 1 (by norm_num) 0 (by norm_num) (by norm_num),
        hcs i (Finset.mem_range.1 hi) 2 (by norm_num) 0 (by norm_num) (by norm_num),
        hcs i (Finset.mem_range.1 hi) 2 (by norm_num) 1 (by norm_num) (by norm_num)]
  have hS' : TauSymm p.tau := by rw [hp]; exact hS
  have hF' : Flat p.tau := by rw [hp]; exact hF
  have g02 : 1 / 200 < |p.rotcon 0 - p.rotcon 2| := by rw [hp]; exact h02
  have g12 : 1 / 200 < |p.rotcon 1 - p.rotcon 2| := by rw [hp]; exact h12'
  obtain ⟨v1, v2, v3⟩ := scc_values p hn6
  refine ⟨_, _, _, _, _, _, _, _, _, _, h6, ?_⟩
  rw [hφ, v1 0 (by norm_num), v1 1 (by norm_num),
    v1 2 (by norm_num), v2 0 (by norm_num) 1 (by norm_num) (by norm_num), v2 0 (by norm_num) 2 (by norm_num) (by norm_num),
    v2 1 (by norm_num) 0 (by norm_num) (by norm_num), v2 1 (by norm_num) 2 (by norm_num) (by norm_num),
    v2 2 (by norm_num) 0 (by norm_num) (by norm_num), v2 2 (by norm_num) 1 (by norm_num) (by norm_num), v3,
    sccDiag_val_flat p hS' hF' g02 g12 (x := 0) (y := 1) (z := 2) (s := 0) (by simp),
    sccDiag_val_flat p hS' hF' g02 g12 (x := 1) (y := 0) (z := 2) (s := 2) (by simp),
    sccDiag_val_flat p hS' hF' g02 g12 (x := 2) (y := 0) (z := 1) (s := 5) (by simp),
    sccPair_val_flat p hS' hF' g02 g12 (x := 0) (y := 1) (z := 2) (s := 0) (t := 2) (u := 1) (by simp),
    sccPair_val_flat p hS' hF' g02 g12 (x := 0) (y := 2) (z := 1) (s := 0) (t := 5) (u := 3) (by simp),
    sccPair_val_flat p hS' hF' g02 g12 (x := 1) (y := 0) (z := 2) (s := 2) (t := 0) (u := 1) (by simp),
    sccPair_val_flat p hS' hF' g02 g12 (x := 1) (y := 2) (z := 0) (s := 2) (t := 5) (u := 4) (by simp),
    sccPair_val_flat p hS' hF' g02 g12 (x := 2) (y := 0) (z := 1) (s := 5) (t := 0) (u := 3) (by simp),
    sccPair_val_flat p hS' hF' g02 g12 (x := 2) (y := 1) (z := 0) (s := 5) (t := 2) (u := 4) (by simp),
    sccXyz_val_flat p hS' hF' g02 g12, hp]
  simp only
  rw [hq 1 0 (by norm_num) (by norm_num) (by norm_num), hq 2 0 (by norm_num) (by norm_num) (by norm_num),
    hq 0 1 (by norm_num) (by norm_num) (by norm_num), hq 2 1 (by norm_num) (by norm_num) (by norm_num),
    hq 0 2 (by norm_num) (by norm_num) (by norm_num), hq 1 2 (by norm_num) (by norm_num) (by norm_num), hq3]
  have S3 : ∀ g : ℕ → ℝ, ∑ w ∈ Finset.range 3, g w = g 0 + g 1 + g 2 := fun g => by
    simp [Finset.sum_range_succ]
  have k01 := gapy_p01 n02 e4 e5 e6
  have k02 := gapy_p02 n02 e4 e5
  have k10 := gapy_p10 n02 e4 e5 e6
  have k12 := gapy_p12 n02 e4 e5 e6
  have k20 := gapy_p20 n02 e4 e5
  have k21 := gapy_p21 n02 e4 e5 e6
  have kq := gapy_q n02 e4 e5 e6
  obtain ⟨z1, z2, z3, z4, z5, z6⟩ := hF
  simp only [S3, tau_canon hS, z1, z2, z3, z4, z5, z6, ← ha0, ← ha1, ← ha2]
  have m0 : ∀ x : ℝ, -(2 * x) + 2 * x = 0 := fun x => by ring
  simp only [m0]
  refine ⟨?_, ?_, ?_, ?_, ?_, ?_, ?_, ?_, ?_, ?_⟩
  · rw [e4]; field_simp; ring
  · ring
  · rw [e5, show rotcon 2 - rotcon 0 = -(rotcon 0 - rotcon 2) by ring]; field_simp; ring
  · linear_combination k01
  · linear_combination k02
  · linear_combination k10
  · linear_combination k12
  · linear_combination k20
  · linear_combination k21
  · linear_combination kq

end

end Verif
