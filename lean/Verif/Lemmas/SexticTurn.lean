import Verif.Lemmas.SexticSym

/-! What an axis of symmetry means for the coefficients of a Hamiltonian. -/

namespace Verif

open MvPolynomial

/-- The terms even and odd in `z` are symmetric by themselves. -/
theorem Turn.split {c s : ℝ} {f g : Poly} (h : Turn c s (f + g)) (hf : MirrorZ f)
    (hg : ∀ x y z : ℝ, eval ![x, y, -z] g = -eval ![x, y, z] g) : Turn c s f ∧ Turn c s g := by
  constructor <;> intro x y z <;>
  · have h1 := h x y z
    have h2 := h x y (-z)
    simp only [map_add] at h1 h2
    rw [hf, hf, hg, hg] at h2
    linarith

theorem mirrorZ_quarticH (E : ℕ → ℕ → ℝ) : MirrorZ (quarticH E) := by
  intro x y z
  simp [quarticH, sum3]

theorem mirrorZ_sexP (d0 d1 d2 p01 p02 p10 p12 p20 p21 q : ℝ) : MirrorZ (sexP d0 d1 d2 p01 p02 p10 p12 p20 p21 q) := by
  intro x y z
  simp only [sexP, map_add, map_mul, map_pow, eval_C, eval_X]
  simp only [Matrix.cons_val_zero, Matrix.cons_val_one, Matrix.cons_val]
  ring

theorem c_ne_one {c s : ℝ} (h1 : c ^ 2 + s ^ 2 = 1) (hs : s ≠ 0) : c ≠ 1 := by
  rintro rfl
  exact hs (pow_eq_zero_iff two_ne_zero |>.1 (by linarith))

theorem turn_quartic {c s : ℝ} (h1 : c ^ 2 + s ^ 2 = 1) (hcs : c * s ≠ 0) {E : ℕ → ℕ → ℝ} (hE : ∀ i j, E i j = E j i)
    (h : Turn c s (quarticH E)) : E 1 1 = E 0 0 ∧ E 0 1 = E 0 0 ∧ E 1 2 = E 0 2 := by
  have hs : s ≠ 0 := right_ne_zero_of_mul hcs
  have hc : c ≠ 0 := left_ne_zero_of_mul hcs
  have key : ∀ x y z : ℝ, eval ![x, y, z] (quarticH E) = E 0 0 * x ^ 4 + E 1 1 * y ^ 4 + E 2 2 * z ^ 4 +
      2 * E 0 1 * x ^ 2 * y ^ 2 + 2 * E 0 2 * x ^ 2 * z ^ 2 + 2 * E 1 2 * y ^ 2 * z ^ 2 := by
    intro x y z
    simp only [quarticH, sum3, map_add, map_mul, map_pow, eval_C, eval_X, hE 1 0, hE 2 0, hE 2 1, Fin.val_zero, Fin.val_one,
      Fin.val_two, Fin.isValue]
    simp only [Matrix.cons_val_zero, Matrix.cons_val_one, Matrix.cons_val]
    ring
  have k1 := h 1 0 0
  have k2 := h 0 1 0
  have k3 := h 1 0 1
  simp only [key] at k1 k2 k3
  have c2 : c ^ 2 = 1 - s ^ 2 := by linarith
  have e1 : E 1 1 = E 0 0 := by
    have : s ^ 2 * (E 1 1 - E 0 0) = 0 := by
      linear_combination (k1 - k2) / 2 - (E 0 0 - E 1 1) * (c ^ 2 - s ^ 2 + 1) / 2 * h1
    rcases mul_eq_zero.1 this with h | h
    · exact absurd (pow_eq_zero_iff two_ne_zero |>.1 h) hs
    · linarith
  have e2 : E 0 1 = E 0 0 := by
    have : (c * s) ^ 2 * (E 0 1 - E 0 0) = 0 := by
      rw [e1] at k1
      linear_combination k1 / 2 - E 0 0 * (c ^ 2 + s ^ 2 + 1) / 2 * h1
    rcases mul_eq_zero.1 this with h | h
    · exact absurd (pow_eq_zero_iff two_ne_zero |>.1 h) hcs
    · linarith
  refine ⟨e1, e2, ?_⟩
  have : s ^ 2 * (E 1 2 - E 0 2) = 0 := by linear_combination (k3 - k1) / 2 - E 0 2 * c2
  rcases mul_eq_zero.1 this with h | h
  · exact absurd (pow_eq_zero_iff two_ne_zero |>.1 h) hs
  · linarith

/-- The odd terms of a molecule with an axis of symmetry are those of a threefold axis. -/
theorem turn_odd {c s : ℝ} (h1 : c ^ 2 + s ^ 2 = 1) (hcs : c * s ≠ 0) {a10 a11 a12 : ℝ}
    (h : Turn c s (oddP 0 0 0 a10 a11 a12 0 0 0)) : a12 = 0 ∧ a11 = -3 * a10 := by
  have hs : s ≠ 0 := right_ne_zero_of_mul hcs
  have hc : c ≠ 0 := left_ne_zero_of_mul hcs
  have hc1 : c - 1 ≠ 0 := sub_ne_zero.2 (c_ne_one h1 hs)
  have key : ∀ x y z : ℝ, eval ![x, y, z] (oddP 0 0 0 a10 a11 a12 0 0 0) =
      x * z * (a10 * x ^ 2 + a11 * y ^ 2 + a12 * z ^ 2) := by
    intro x y z
    simp only [oddP, map_add, map_mul, map_pow, eval_C, eval_X]
    simp only [Matrix.cons_val_zero, Matrix.cons_val_one, Matrix.cons_val]
    ring
  have k1 := h 1 0 1
  have k2 := h 1 0 2
  have k3 := h 0 1 1
  simp only [key] at k1 k2 k3
  have e1 : a12 = 0 := by
    have : (c - 1) * a12 = 0 := by linear_combination k2 / 6 - k1 / 3
    exact (mul_eq_zero.1 this).resolve_left hc1
  subst e1
  have k3' : a10 * s ^ 2 + a11 * c ^ 2 = 0 := by
    have : s * (a10 * s ^ 2 + a11 * c ^ 2) = 0 := by linear_combination -k3
    exact (mul_eq_zero.1 this).resolve_left hs
  refine ⟨rfl, ?_⟩
  have k4 : a10 * (2 * c + 1) = 0 := by
    have : (c - 1) * (a10 * (2 * c + 1)) = 0 := by
      linear_combination c * k1 - s ^ 2 * k3' + (a10 * (1 + s ^ 2) - a10 * c ^ 2) * h1
    exact (mul_eq_zero.1 this).resolve_left hc1
  rcases mul_eq_zero.1 k4 with h0 | h0
  · subst h0
    have : a11 * c ^ 2 = 0 := by linarith
    rw [(mul_eq_zero.1 this).resolve_right (pow_ne_zero 2 hc)]
    ring
  · have : c = -1 / 2 := by linarith
    have s2 : s ^ 2 = 3 / 4 := by rw [this] at h1; linarith
    rw [this, s2] at k3'
    linarith

/-- The even sextic terms of a molecule with an axis of symmetry that is not fourfold. -/
structure Sym6 (d0 d1 p01 p02 p10 p12 p20 p21 q : ℝ) : Prop where
  h4 : p21 = p20
  h2 : p12 = p02
  h2' : q = 2 * p02
  h0 : p01 + p10 = 3 / 2 * (d0 + d1)
  h0' : p10 - p01 = 15 / 2 * (d0 - d1)

theorem turn_sextic {c s : ℝ} (h1 : c ^ 2 + s ^ 2 = 1) (hcs : c * s ≠ 0) {d0 d1 d2 p01 p02 p10 p12 p20 p21 q : ℝ}
    (h : Turn c s (sexP d0 d1 d2 p01 p02 p10 p12 p20 p21 q)) : Sym6 d0 d1 p01 p02 p10 p12 p20 p21 q := by
  have hs : s ≠ 0 := right_ne_zero_of_mul hcs
  have hc : c ≠ 0 := left_ne_zero_of_mul hcs
  have s0 : ∀ x : ℝ, s ^ 2 * x = 0 → x = 0 := fun x hx => (mul_eq_zero.1 hx).resolve_left (pow_ne_zero 2 hs)
  have cs0 : ∀ x : ℝ, (c * s) ^ 2 * x = 0 → x = 0 := fun x hx => (mul_eq_zero.1 hx).resolve_left (pow_ne_zero 2 hcs)
  have key : ∀ x y z : ℝ, eval ![x, y, z] (sexP d0 d1 d2 p01 p02 p10 p12 p20 p21 q) =
      d0 * x ^ 6 + d1 * y ^ 6 + d2 * z ^ 6 + 2 * p01 * (x ^ 4 * y ^ 2) + 2 * p02 * (x ^ 4 * z ^ 2) +
      2 * p10 * (x ^ 2 * y ^ 4) + 2 * p12 * (y ^ 4 * z ^ 2) + 2 * p20 * (x ^ 2 * z ^ 4) + 2 * p21 * (y ^ 2 * z ^ 4) +
      2 * q * (x ^ 2 * y ^ 2 * z ^ 2) := by
    intro x y z
    simp only [sexP, map_add, map_mul, map_pow, eval_C, eval_X]
    simp only [Matrix.cons_val_zero, Matrix.cons_val_one, Matrix.cons_val]
  have hk : ∀ x y z : ℝ, _ := fun x y z => (key _ _ _).symm.trans ((h x y z).trans (key x y z))
  have x0 := hk 1 0 0
  have x1 := hk 1 0 1
  have x2 := hk 1 0 2
  have y0 := hk 0 1 0
  have y1 := hk 0 1 1
  have y2 := hk 0 1 2
  have c2 : c ^ 2 = 1 - s ^ 2 := by linarith
  -- fourth power of `z`
  have f4 : p20 * c ^ 2 + p21 * s ^ 2 = p20 := by linear_combination (x2 - x0 - 4 * (x1 - x0)) / 24
  have e4 : p21 = p20 := by
    have := s0 (p21 - p20) (by linear_combination f4 - p20 * c2)
    linarith
  -- second power of `z`
  have f2 : p02 * c ^ 4 + p12 * s ^ 4 + q * (c * s) ^ 2 = p02 := by
    linear_combination (16 * (x1 - x0) - (x2 - x0)) / 24
  have g2 : p02 * s ^ 4 + p12 * c ^ 4 + q * (c * s) ^ 2 = p12 := by
    linear_combination (16 * (y1 - y0) - (y2 - y0)) / 24
  have e2 : p12 = p02 := by
    have := s0 (p12 - p02) (by
      linear_combination (f2 - g2) / 2 - (p02 - p12) * (c ^ 2 - s ^ 2 + 1) / 2 * h1)
    linarith
  have e2' : q = 2 * p02 := by
    rw [e2] at f2
    have := cs0 (q - 2 * p02) (by linear_combination f2 - p02 * (c ^ 2 + s ^ 2 + 1) * h1)
    linarith
  -- the terms without `z`
  obtain ⟨A, hA⟩ : ∃ A, A = (5 * (d0 + d1) + 2 * (p01 + p10)) / 16 := ⟨_, rfl⟩
  obtain ⟨β, hβ⟩ : ∃ β, β = (15 * (d0 - d1) + 2 * (p01 - p10)) / 32 := ⟨_, rfl⟩
  obtain ⟨γ, hγ⟩ : ∃ γ, γ = (3 * (d0 + d1) - 2 * (p01 + p10)) / 16 := ⟨_, rfl⟩
  obtain ⟨δ, hδ⟩ : ∃ δ, δ = (d0 - d1 - 2 * (p01 - p10)) / 32 := ⟨_, rfl⟩
  have form : ∀ x y : ℝ, d0 * x ^ 6 + d1 * y ^ 6 + 2 * p01 * (x ^ 4 * y ^ 2) + 2 * p10 * (x ^ 2 * y ^ 4) =
      A * (x ^ 2 + y ^ 2) ^ 3 + β * (x ^ 2 + y ^ 2) ^ 2 * (x ^ 2 - y ^ 2) +
      γ * (x ^ 2 + y ^ 2) * (x ^ 4 - 6 * x ^ 2 * y ^ 2 + y ^ 4) +
      δ * (x ^ 6 - 15 * x ^ 4 * y ^ 2 + 15 * x ^ 2 * y ^ 4 - y ^ 6) := by
    intro x y
    rw [hA, hβ, hγ, hδ]
    ring
  obtain ⟨C2, hC2⟩ : ∃ C2, C2 = c ^ 2 - s ^ 2 := ⟨_, rfl⟩
  obtain ⟨S2, hS2⟩ : ∃ S2, S2 = 2 * c * s := ⟨_, rfl⟩
  obtain ⟨C4, hC4⟩ : ∃ C4, C4 = c ^ 4 - 6 * c ^ 2 * s ^ 2 + s ^ 4 := ⟨_, rfl⟩
  obtain ⟨S4, hS4⟩ : ∃ S4, S4 = 4 * c ^ 3 * s - 4 * c * s ^ 3 := ⟨_, rfl⟩
  obtain ⟨C6, hC6⟩ : ∃ C6, C6 = c ^ 6 - 15 * c ^ 4 * s ^ 2 + 15 * c ^ 2 * s ^ 4 - s ^ 6 := ⟨_, rfl⟩
  obtain ⟨S6, hS6⟩ : ∃ S6, S6 = 6 * c ^ 5 * s - 20 * c ^ 3 * s ^ 3 + 6 * c * s ^ 5 := ⟨_, rfl⟩
  have turn : ∀ x y : ℝ, β * (x ^ 2 + y ^ 2) ^ 2 * (C2 * (x ^ 2 - y ^ 2) - S2 * (2 * x * y)) +
      γ * (x ^ 2 + y ^ 2) * (C4 * (x ^ 4 - 6 * x ^ 2 * y ^ 2 + y ^ 4) - S4 * (4 * x ^ 3 * y - 4 * x * y ^ 3)) +
      δ * (C6 * (x ^ 6 - 15 * x ^ 4 * y ^ 2 + 15 * x ^ 2 * y ^ 4 - y ^ 6) -
        S6 * (6 * x ^ 5 * y - 20 * x ^ 3 * y ^ 3 + 6 * x * y ^ 5)) =
      β * (x ^ 2 + y ^ 2) ^ 2 * (x ^ 2 - y ^ 2) + γ * (x ^ 2 + y ^ 2) * (x ^ 4 - 6 * x ^ 2 * y ^ 2 + y ^ 4) +
      δ * (x ^ 6 - 15 * x ^ 4 * y ^ 2 + 15 * x ^ 2 * y ^ 4 - y ^ 6) := by
    intro x y
    have k := hk x y 0
    have f1 := form (c * x - s * y) (s * x + c * y)
    have f2 := form x y
    have r : (c * x - s * y) ^ 2 + (s * x + c * y) ^ 2 = x ^ 2 + y ^ 2 := by linear_combination (x ^ 2 + y ^ 2) * h1
    rw [r] at f1
    have t2 : (c * x - s * y) ^ 2 - (s * x + c * y) ^ 2 = C2 * (x ^ 2 - y ^ 2) - S2 * (2 * x * y) := by
      rw [hC2, hS2]; ring
    have t4 : (c * x - s * y) ^ 4 - 6 * (c * x - s * y) ^ 2 * (s * x + c * y) ^ 2 + (s * x + c * y) ^ 4 =
        C4 * (x ^ 4 - 6 * x ^ 2 * y ^ 2 + y ^ 4) - S4 * (4 * x ^ 3 * y - 4 * x * y ^ 3) := by
      rw [hC4, hS4]; ring
    have t6 : (c * x - s * y) ^ 6 - 15 * (c * x - s * y) ^ 4 * (s * x + c * y) ^ 2 +
        15 * (c * x - s * y) ^ 2 * (s * x + c * y) ^ 4 - (s * x + c * y) ^ 6 =
        C6 * (x ^ 6 - 15 * x ^ 4 * y ^ 2 + 15 * x ^ 2 * y ^ 4 - y ^ 6) -
        S6 * (6 * x ^ 5 * y - 20 * x ^ 3 * y ^ 3 + 6 * x * y ^ 5) := by
      rw [hC6, hS6]; ring
    rw [t2, t4, t6] at f1
    simp only [ne_eq, OfNat.ofNat_ne_zero, not_false_eq_true, zero_pow, mul_zero, add_zero] at k
    linarith [f1, f2, k]
  have a := turn 1 0
  have b := turn 0 1
  have d := turn 1 1
  have e := turn 2 1
  have f := turn 1 2
  norm_num at a b d e f
  have hg : γ = 0 := by
    have : γ * C4 = γ := by linarith
    refine cs0 γ ?_
    have e : C4 = 1 - 8 * (c * s) ^ 2 := by rw [hC4]; linear_combination (c ^ 2 + s ^ 2 + 1) * h1
    rw [e] at this
    linarith
  rw [hg] at a b d e f
  have hb : β = 0 := by
    have : β * C2 = β := by linarith
    refine s0 β ?_
    have e : C2 = 1 - 2 * s ^ 2 := by rw [hC2]; linarith
    rw [e] at this
    linarith
  exact ⟨e4, e2, e2', by linarith, by linarith⟩

/-- The odd terms of a threefold axis keep the symmetry. -/
theorem sym6_add {d0 d1 p01 p02 p10 p12 p20 p21 q a s : ℝ} (h : Sym6 d0 d1 p01 p02 p10 p12 p20 p21 q) :
    Sym6 (d0 + 1 / 2 * (-a * s)) d1 (p01 + 1 / 2 * (a * s - 3 / 2 * a * (-s / 3) - 1 / 2 * (-3 * a) * s))
      (p02 + 1 / 2 * (3 / 2 * a * s)) (p10 + 1 / 2 * (-3 * a * s - 3 / 2 * (-3 * a) * (-s / 3)))
      (p12 + 1 / 2 * (3 / 2 * (-3 * a) * (-s / 3))) p20 p21
      (q + 1 / 2 * (9 / 2 * a * (-s / 3) - 3 / 2 * (-3 * a) * s)) := by
  obtain ⟨h4, h2, h2', h0, h0'⟩ := h
  exact ⟨h4, by linear_combination h2, by linear_combination h2', by linear_combination h0, by linear_combination h0'⟩

end Verif
