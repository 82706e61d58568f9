import Verif.Lemmas.SexticTop

/-! The tensors of symmetric tops and the transformed Hamiltonian. -/

namespace Verif

open MvPolynomial

variable {rotor : Rotor} {nvib nfreq : Nat} {rotcon primat freq : Vec ℝ} {wila : Mat ℝ} {zmat f3 : T3 ℝ}

/-- The quartic part of the Hamiltonian: terms even and odd in the components. -/
theorem quartic_parts (nvib : Nat) (rotcon primat freq : Vec ℝ) (wila : Mat ℝ) (zmat f3 : T3 ℝ) :
    let τ := makeTau nvib freq primat wila
    (rotorData nvib rotcon primat freq wila zmat f3).H4 = quarticH (tau4 nvib freq primat wila) +
      oddP (τ 0 0 1 2 + 2 * τ 0 1 0 2) (τ 1 1 1 2) (τ 1 2 2 2) (τ 0 0 0 2)
        (τ 0 2 1 1 + 2 * τ 0 1 1 2) (τ 0 2 2 2) (τ 0 0 0 1) (τ 0 1 1 1) (τ 0 1 2 2 + 2 * τ 0 2 1 2) := by
  intro τ
  have hτ : τ = makeTau nvib freq primat wila := rfl
  have hS : TauSymm τ := tau_symm nvib freq primat wila
  have hD := rotorData_tau nvib rotcon primat freq wila zmat f3
  rw [← hτ] at hD
  rw [quartic_split _ (hD ▸ hS) (tau4 nvib freq primat wila), hD]
  all_goals
    simp only [tau4, tauPrime, hD, lit_real, ← hτ, tau_canon hS, ne_eq, not_true_eq_false, if_false, not_false_eq_true, if_true,
      zero_ne_one, one_ne_zero, OfNat.ofNat_ne_zero, OfNat.zero_ne_ofNat, OfNat.ofNat_ne_one, OfNat.one_ne_ofNat]
    first | (norm_num; done) | (norm_num; ring) | skip

/-- The parts of the Hamiltonian of a molecule with the plane of symmetry `y = 0`, and the tensor. -/
theorem top_parts (hr : rotor = .oblateSymmTop ∨ rotor = .prolateSymmTop) (hn6 : nfreq ≠ 6)
    (h02 : 1 / 200 < |rotcon 0 - rotcon 2|) (h12' : 1 / 200 < |rotcon 1 - rotcon 2|)
    (h12 : ∀ i j k, f3 i j k = f3 j i k) (h23 : ∀ i j k, f3 i j k = f3 i k j)
    (m4 : Mirror (rotorData nvib rotcon primat freq wila zmat f3).H4)
    (m6 : Mirror (rotorData nvib rotcon primat freq wila zmat f3).H6) :
    let φ := sexticScc rotor nvib nfreq rotcon primat freq wila zmat f3
    ∃ a10 a11 a12 s10 s11 s12 d0 d1 d2 p01 p02 p10 p12 p20 p21 q : ℝ,
      (rotorData nvib rotcon primat freq wila zmat f3).H4 = quarticH (tau4 nvib freq primat wila) +
        oddP 0 0 0 a10 a11 a12 0 0 0 ∧
      (∃ v, (rotorData nvib rotcon primat freq wila zmat f3).H6 =
        sexP d0 d1 d2 p01 p02 p10 p12 p20 p21 q + X 0 * X 2 * quadP v) ∧
      s10 = -a10 / (2 * (rotcon 0 - rotcon 2)) ∧ s12 = -a12 / (2 * (rotcon 0 - rotcon 2)) ∧
      s11 = (-a11 - 2 * (2 * (rotcon 2 - rotcon 1)) * s10 - 2 * (2 * (rotcon 1 - rotcon 0)) * s12) /
        (3 * (2 * (rotcon 0 - rotcon 2))) ∧
      φ 0 0 0 = d0 + 1 / 2 * (-a10 * s10) ∧ φ 1 1 1 = d1 ∧ φ 2 2 2 = d2 + 1 / 2 * (a12 * s12) ∧
      φ 1 0 0 = p01 + 1 / 2 * (a10 * s10 - 3 / 2 * a10 * s11 - 1 / 2 * a11 * s10) ∧
      φ 2 0 0 = p02 + 1 / 2 * (3 / 2 * a10 * s10 - 1 / 2 * a10 * s12 - 3 / 2 * a12 * s10) ∧
      φ 0 1 1 = p10 + 1 / 2 * (a11 * s10 - 3 / 2 * a11 * s11) ∧ φ 2 1 1 = p12 + 1 / 2 * (3 / 2 * a11 * s11 - a11 * s12) ∧
      φ 0 2 2 = p20 + 1 / 2 * (3 / 2 * a10 * s12 + 1 / 2 * a12 * s10 - 3 / 2 * a12 * s12) ∧
      φ 1 2 2 = p21 + 1 / 2 * (1 / 2 * a11 * s12 + 3 / 2 * a12 * s11 - a12 * s12) ∧
      φ 0 1 2 = q + 1 / 2 * (9 / 2 * a10 * s11 - 3 * a10 * s12 - 3 / 2 * a11 * s10 + 3 / 2 * a11 * s12 + 3 * a12 * s10 -
        9 / 2 * a12 * s11) := by
  intro φ
  have h4 := quartic_parts nvib rotcon primat freq wila zmat f3
  dsimp only at h4
  obtain ⟨a00, a01, a02, a20, a21, a22⟩ := (h4 ▸ m4).quartic
  have hF : Flat (makeTau nvib freq primat wila) := ⟨a20, a21, a01, a02, by linarith, by linarith⟩
  rw [a00, a01, a02, a20, a21, a22] at h4
  obtain ⟨d0, d1, d2, p01, p02, p10, p12, p20, p21, q, h6, e⟩ := scc_flat nvib nfreq rotcon primat freq wila zmat f3 hr hn6 h02 h12' h12 h23 hF rfl rfl rfl
    rfl rfl rfl
  exact ⟨_, _, _, _, _, _, d0, d1, d2, p01, p02, p10, p12, p20, p21, q, h4, m6.parts h6, rfl, rfl, rfl, e⟩

/-- The transformation that removes the odd terms. -/
theorem top_skew (hr : rotor = .oblateSymmTop ∨ rotor = .prolateSymmTop) (hn6 : nfreq ≠ 6)
    (h02 : 1 / 200 < |rotcon 0 - rotcon 2|) (h12' : 1 / 200 < |rotcon 1 - rotcon 2|)
    (h12 : ∀ i j k, f3 i j k = f3 j i k) (h23 : ∀ i j k, f3 i j k = f3 i k j)
    (m4 : Mirror (rotorData nvib rotcon primat freq wila zmat f3).H4)
    (m6 : Mirror (rotorData nvib rotcon primat freq wila zmat f3).H6) :
    ∃ s t, SkewGen 3 s ∧ SkewGen 5 t ∧ Transforms s t (rotorH rotcon) (rotorData nvib rotcon primat freq wila zmat f3).H4
      (rotorData nvib rotcon primat freq wila zmat f3).H6 (quarticH (tau4 nvib freq primat wila))
      (sexticH (sexticScc rotor nvib nfreq rotcon primat freq wila zmat f3)) := by
  obtain ⟨a10, a11, a12, s10, s11, s12, d0, d1, d2, p01, p02, p10, p12, p20, p21, q, h4, h6, e1, e2, e3, e⟩ :=
    top_parts hr hn6 h02 h12' h12 h23 m4 m6
  rw [sexticH_eq, h4]
  refine mirror_reduce rotcon (apart_ne h02) _ _ _ _ _ _ _ _ _ _ _ _ _ _ _ _ _ _ _ _ _ _ _ _ _ h6 ?_
  intro s10' s11' s12' e1' e2' e3'
  obtain rfl : s10' = s10 := e1'.trans e1.symm
  obtain rfl : s12' = s12 := e2'.trans e2.symm
  obtain rfl : s11' = s11 := e3'.trans e3.symm
  exact e

/-- An axis of symmetry, not of order two or four, makes the tensors those of a symmetric top. -/
theorem top_turn (hr : rotor = .oblateSymmTop ∨ rotor = .prolateSymmTop) (hn6 : nfreq ≠ 6) (h01 : rotcon 0 = rotcon 1)
    (h02 : 1 / 200 < |rotcon 0 - rotcon 2|) (h12 : ∀ i j k, f3 i j k = f3 j i k) (h23 : ∀ i j k, f3 i j k = f3 i k j)
    (m4 : Mirror (rotorData nvib rotcon primat freq wila zmat f3).H4)
    (m6 : Mirror (rotorData nvib rotcon primat freq wila zmat f3).H6) {c s : ℝ} (h1 : c ^ 2 + s ^ 2 = 1) (hcs : c * s ≠ 0)
    (r4 : Turn c s (rotorData nvib rotcon primat freq wila zmat f3).H4)
    (r6 : Turn c s (rotorData nvib rotcon primat freq wila zmat f3).H6) :
    let E := tau4 nvib freq primat wila
    let φ := sexticScc rotor nvib nfreq rotcon primat freq wila zmat f3
    (E 1 1 = E 0 0 ∧ E 0 1 = E 0 0 ∧ E 1 2 = E 0 2) ∧
    Sym6 (φ 0 0 0) (φ 1 1 1) (φ 1 0 0) (φ 2 0 0) (φ 0 1 1) (φ 2 1 1) (φ 0 2 2) (φ 1 2 2) (φ 0 1 2) := by
  intro E φ
  obtain ⟨a10, a11, a12, s10, s11, s12, d0, d1, d2, p01, p02, p10, p12, p20, p21, q, h4, ⟨v, h6⟩, e1, e2, e3, e⟩ :=
    top_parts hr hn6 h02 (h01 ▸ h02) h12 h23 m4 m6
  have x4 := (h4 ▸ r4).split (mirrorZ_quarticH _) (fun x y z => by simp [oddP])
  have x6 := (h6 ▸ r6).split (mirrorZ_sexP _ _ _ _ _ _ _ _ _ _) (fun x y z => by
    simp only [quadP, map_add, map_mul, map_pow, eval_C, eval_X]
    simp only [Matrix.cons_val_zero, Matrix.cons_val_one, Matrix.cons_val]
    ring)
  refine ⟨turn_quartic h1 hcs (tau4_comm _ _ _ _) x4.1, ?_⟩
  have y6 := turn_sextic h1 hcs x6.1
  obtain ⟨rfl, rfl⟩ := turn_odd h1 hcs x4.2
  have n := sub_ne_zero.2 (apart_ne h02)
  obtain rfl : s12 = 0 := by rw [e2]; simp
  have e3' : s11 = -s10 / 3 := by
    rw [e3, ← h01]
    have : a10 = -(2 * (rotcon 0 - rotcon 2)) * s10 := by rw [e1]; field_simp
    rw [this]
    field_simp
    ring
  subst e3'
  obtain ⟨f1, f2, f3, f4, f5, f6, f7, f8, f9, f10⟩ := e
  have := sym6_add (a := a10) (s := s10) y6
  show Sym6 (φ 0 0 0) (φ 1 1 1) (φ 1 0 0) (φ 2 0 0) (φ 0 1 1) (φ 2 1 1) (φ 0 2 2) (φ 1 2 2) (φ 0 1 2)
  simp only [φ]
  rw [f1, f2, f4, f5, f6, f7, f8, f9, f10]
  convert this using 1 <;> ring

/-- A planar molecule has no odd terms. -/
theorem top_planar (hr : rotor = .oblateSymmTop ∨ rotor = .prolateSymmTop) (hn6 : nfreq ≠ 6)
    (h02 : 1 / 200 < |rotcon 0 - rotcon 2|) (h12' : 1 / 200 < |rotcon 1 - rotcon 2|)
    (h12 : ∀ i j k, f3 i j k = f3 j i k) (h23 : ∀ i j k, f3 i j k = f3 i k j)
    (m4 : Mirror (rotorData nvib rotcon primat freq wila zmat f3).H4)
    (m6 : Mirror (rotorData nvib rotcon primat freq wila zmat f3).H6)
    (z4 : MirrorZ (rotorData nvib rotcon primat freq wila zmat f3).H4)
    (z6 : MirrorZ (rotorData nvib rotcon primat freq wila zmat f3).H6) {c s : ℝ} (h1 : c ^ 2 + s ^ 2 = 1) (hcs : c * s ≠ 0)
    (r4 : Turn c s (rotorData nvib rotcon primat freq wila zmat f3).H4)
    (r6 : Turn c s (rotorData nvib rotcon primat freq wila zmat f3).H6) :
    let E := tau4 nvib freq primat wila
    let φ := sexticScc rotor nvib nfreq rotcon primat freq wila zmat f3
    (E 1 1 = E 0 0 ∧ E 0 1 = E 0 0 ∧ E 1 2 = E 0 2) ∧
    (rotorData nvib rotcon primat freq wila zmat f3).H4 = quarticH E ∧
    (rotorData nvib rotcon primat freq wila zmat f3).H6 = sexticH φ ∧
    Sym6 (φ 0 0 0) (φ 1 1 1) (φ 1 0 0) (φ 2 0 0) (φ 0 1 1) (φ 2 1 1) (φ 0 2 2) (φ 1 2 2) (φ 0 1 2) := by
  intro E φ
  obtain ⟨a10, a11, a12, s10, s11, s12, d0, d1, d2, p01, p02, p10, p12, p20, p21, q, h4, ⟨v, h6⟩, e1, e2, e3, e⟩ :=
    top_parts hr hn6 h02 h12' h12 h23 m4 m6
  have k4 : oddP 0 0 0 a10 a11 a12 0 0 0 = 0 := by
    refine MvPolynomial.funext fun w => ?_
    have ew : w = ![w 0, w 1, w 2] := by funext i; fin_cases i <;> rfl
    have a := z4 (w 0) (w 1) (w 2)
    have b := mirrorZ_quarticH E (w 0) (w 1) (w 2)
    rw [h4, map_add, map_add, b, add_left_cancel_iff] at a
    rw [ew, map_zero]
    simp only [oddP, map_add, map_mul, map_pow, eval_C, eval_X] at a ⊢
    simp only [Matrix.cons_val_zero, Matrix.cons_val_one, Matrix.cons_val] at a ⊢
    linarith
  have k6 : (X 0 * X 2 * quadP v : Poly) = 0 := by
    refine MvPolynomial.funext fun w => ?_
    have ew : w = ![w 0, w 1, w 2] := by funext i; fin_cases i <;> rfl
    have a := z6 (w 0) (w 1) (w 2)
    have b := mirrorZ_sexP d0 d1 d2 p01 p02 p10 p12 p20 p21 q (w 0) (w 1) (w 2)
    rw [h6, map_add, map_add, b, add_left_cancel_iff] at a
    rw [ew, map_zero]
    simp only [quadP, map_add, map_mul, map_pow, eval_C, eval_X] at a ⊢
    simp only [Matrix.cons_val_zero, Matrix.cons_val_one, Matrix.cons_val] at a ⊢
    linarith
  have ha : a10 = 0 ∧ a11 = 0 ∧ a12 = 0 := by
    have g : ∀ x y z : ℝ, eval ![x, y, z] (oddP 0 0 0 a10 a11 a12 0 0 0) = 0 := fun x y z => by rw [k4, map_zero]
    have g1 := g 1 0 1
    have g2 := g 1 0 2
    have g3 := g 1 1 1
    simp [oddP] at g1 g2 g3
    refine ⟨?_, ?_, ?_⟩ <;> linarith
  obtain ⟨rfl, rfl, rfl⟩ := ha
  obtain rfl : s10 = 0 := by rw [e1]; simp
  obtain rfl : s12 = 0 := by rw [e2]; simp
  obtain rfl : s11 = 0 := by rw [e3]; simp
  rw [k4, add_zero] at h4
  rw [k6, add_zero] at h6
  obtain ⟨f1, f2, f3', f4, f5, f6, f7, f8, f9, f10⟩ := e
  refine ⟨turn_quartic h1 hcs (tau4_comm _ _ _ _) (h4 ▸ r4), h4, ?_, ?_⟩
  · rw [h6, sexticH_eq]
    simp only [φ, f1, f2, f3', f4, f5, f6, f7, f8, f9, f10]
    simp
  · have y6 := turn_sextic h1 hcs (h6 ▸ r6)
    simp only [φ, f1, f2, f4, f5, f6, f7, f8, f9, f10]
    simpa using y6

end Verif
