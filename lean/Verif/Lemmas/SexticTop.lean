import Verif.Lemmas.SexticTurn

/-! The fields computed by `Sextic::new` and `Quartic::new` for symmetric tops. -/

namespace Verif

open MvPolynomial

theorem tau4_comm (nvib : Nat) (freq primat : Vec ℝ) (wila : Mat ℝ) (i j : ℕ) :
    tau4 nvib freq primat wila i j = tau4 nvib freq primat wila j i := by
  have h := tau_symm nvib freq primat wila
  have h1 : makeTau nvib freq primat wila j j i i = makeTau nvib freq primat wila i i j j := (h i i j j).2.2
  have h2 : makeTau nvib freq primat wila j i j i = makeTau nvib freq primat wila i j i j :=
    (h i j j i).1.trans (h i j i j).2.1
  simp only [tau4, tauPrime, h1, h2, ne_comm (a := i) (b := j)]

/-- The sextic constants of a symmetric top, if the tensors have its symmetry. The value of `sigma` does not matter. -/
theorem sextic_top {rotor : Rotor} (hr : rotor = .oblateSymmTop ∨ rotor = .prolateSymmTop) (nvib nfreq : Nat)
    (rotcon primat freq : Vec ℝ) (wila : Mat ℝ) (zmat f3 : T3 ℝ) :
    let S := Sextic.new rotor nvib nfreq rotcon primat freq wila zmat f3
    let φ := sexticScc rotor nvib nfreq rotcon primat freq wila zmat f3
    let t := tau4 nvib freq primat wila
    t 1 1 = t 0 0 → t 0 2 = t 1 2 →
    Sym6 (φ 0 0 0) (φ 1 1 1) (φ 1 0 0) (φ 2 0 0) (φ 0 1 1) (φ 2 1 1) (φ 0 2 2) (φ 1 2 2) (φ 0 1 2) →
    sexticH φ = watsonS6 1 0 2 S.hj S.hjk S.hkj S.hk S.h1 S.h2 S.h3 := by
  intro S φ t h11 h12 hφs
  have e00 : ∀ P : Mat ℝ, quarticT 3 (princCart 5).1 P 0 0 = P 1 1 / 4 := fun P => by
    rw [show (4 : ℝ) = Arith.lit 4.0 by rw [lit_real]; norm_num]; rfl
  have e11 : ∀ P : Mat ℝ, quarticT 3 (princCart 5).1 P 1 1 = P 0 0 / 4 := fun P => by
    rw [show (4 : ℝ) = Arith.lit 4.0 by rw [lit_real]; norm_num]; rfl
  have e02 : ∀ P : Mat ℝ, quarticT 3 (princCart 5).1 P 0 2 = P 1 2 / 4 := fun P => by
    rw [show (4 : ℝ) = Arith.lit 4.0 by rw [lit_real]; norm_num]; rfl
  have e12 : ∀ P : Mat ℝ, quarticT 3 (princCart 5).1 P 1 2 = P 0 2 / 4 := fun P => by
    rw [show (4 : ℝ) = Arith.lit 4.0 by rw [lit_real]; norm_num]; rfl
  have hsym : ∀ x y z, x < 3 → y < 3 → z < 3 → φ y x z = φ x y z ∧ φ x z y = φ x y z := fun x y z hx hy hz =>
    scc_symm _ _ _ _ rfl hx hy hz
  have y1 : φ 1 1 0 = φ 0 1 1 := ((hsym 1 1 0 (by norm_num) (by norm_num) (by norm_num)).2.symm.trans
    (hsym 0 1 1 (by norm_num) (by norm_num) (by norm_num)).1)
  have y2 : φ 0 0 1 = φ 1 0 0 := ((hsym 0 0 1 (by norm_num) (by norm_num) (by norm_num)).2.symm.trans
    (hsym 1 0 0 (by norm_num) (by norm_num) (by norm_num)).1)
  have y3 : φ 1 1 2 = φ 2 1 1 := ((hsym 1 1 2 (by norm_num) (by norm_num) (by norm_num)).2.symm.trans
    (hsym 2 1 1 (by norm_num) (by norm_num) (by norm_num)).1)
  have y4 : φ 0 0 2 = φ 2 0 0 := ((hsym 0 0 2 (by norm_num) (by norm_num) (by norm_num)).2.symm.trans
    (hsym 2 0 0 (by norm_num) (by norm_num) (by norm_num)).1)
  have y5 : φ 2 2 1 = φ 1 2 2 := ((hsym 2 2 1 (by norm_num) (by norm_num) (by norm_num)).2.symm.trans
    (hsym 1 2 2 (by norm_num) (by norm_num) (by norm_num)).1)
  have y6 : φ 2 2 0 = φ 0 2 2 := ((hsym 2 2 0 (by norm_num) (by norm_num) (by norm_num)).2.symm.trans
    (hsym 0 2 2 (by norm_num) (by norm_num) (by norm_num)).1)
  have y7 : φ 1 0 2 = φ 0 1 2 := (hsym 0 1 2 (by norm_num) (by norm_num) (by norm_num)).1
  have L2 : (Arith.lit 2.0 : ℝ) = 2 := by rw [lit_real]; norm_num
  have L3 : (Arith.lit 3.0 : ℝ) = 3 := by rw [lit_real]; norm_num
  have L4 : (Arith.lit 4.0 : ℝ) = 4 := by rw [lit_real]; norm_num
  have L5 : (Arith.lit 5.0 : ℝ) = 5 := by rw [lit_real]; norm_num
  have L6 : (Arith.lit 6.0 : ℝ) = 6 := by rw [lit_real]; norm_num
  have L7 : (Arith.lit 7.0 : ℝ) = 7 := by rw [lit_real]; norm_num
  have L8 : (Arith.lit 8.0 : ℝ) = 8 := by rw [lit_real]; norm_num
  have L10 : (Arith.lit 10.0 : ℝ) = 10 := by rw [lit_real]; norm_num
  have L12 : (Arith.lit 12.0 : ℝ) = 12 := by rw [lit_real]; norm_num
  have L15 : (Arith.lit 15.0 : ℝ) = 15 := by rw [lit_real]; norm_num
  have L16 : (Arith.lit 16.0 : ℝ) = 16 := by rw [lit_real]; norm_num
  have L32 : (Arith.lit 32.0 : ℝ) = 32 := by rw [lit_real]; norm_num
  have L64 : (Arith.lit 64.0 : ℝ) = 64 := by rw [lit_real]; norm_num
  obtain ⟨s4, s2, s2', s0, s0'⟩ := hφs
  have hS : S = Sextic.new rotor nvib nfreq rotcon primat freq wila zmat f3 := rfl
  unfold Sextic.new at hS
  rcases hr with rfl | rfl
  all_goals
    extract_lets maxcor taucpm dflt irep ic id t' phi t400 t220 t040 t202 t022 t004 b002 f600 f420 f240 f060 f402 f222
      f042 f204 f024 f006 asym ids rkappa bo sigma phijk ret id' b200 b020 div mu nu lamda at hS
    rw [if_neg (by decide), if_neg (by decide)] at hS
    have t00 : t' 0 0 = t 1 1 := e00 _
    have t11 : t' 1 1 = t 0 0 := e11 _
    have t02 : t' 0 2 = t 1 2 := e02 _
    have t12 : t' 1 2 = t 0 2 := e12 _
    have q000 : phi 0 0 0 = φ 1 1 1 := rfl
    have q111 : phi 1 1 1 = φ 0 0 0 := rfl
    have q222 : phi 2 2 2 = φ 2 2 2 := rfl
    have q001 : phi 0 0 1 = φ 1 1 0 := rfl
    have q110 : phi 1 1 0 = φ 0 0 1 := rfl
    have q002 : phi 0 0 2 = φ 1 1 2 := rfl
    have q112 : phi 1 1 2 = φ 0 0 2 := rfl
    have q220 : phi 2 2 0 = φ 2 2 1 := rfl
    have q221 : phi 2 2 1 = φ 2 2 0 := rfl
    have q012 : phi 0 1 2 = φ 1 0 2 := rfl
    have z1 : t022 = 0 := by
      simp only [t022, t202, t00, t11, t02, t12, h11, h12, L2, L3, L4, L5, L6, L7, L8, L10, L12, L15, L16, L32, L64]; norm_num
    have z2 : f402 = 0 := by
      simp only [f402, q000, q111, q001, q110, y1, y2, L2, L3, L4, L5, L6, L7, L8, L10, L12, L15, L16, L32, L64]; linarith
    have z3 : f222 = 0 := by
      simp only [f222, q002, q112, y3, y4, z2, s2, L2, L3, L4, L5, L6, L7, L8, L10, L12, L15, L16, L32, L64]; norm_num
    have z4 : f042 = 0 := by
      simp only [f042, q220, q221, y5, y6, z2, z3, s4, L2, L3, L4, L5, L6, L7, L8, L10, L12, L15, L16, L32, L64]; norm_num
    have z5 : f204 = 0 := by
      simp only [f204, q000, q111, q001, q110, y1, y2, L2, L3, L4, L5, L6, L7, L8, L10, L12, L15, L16, L32, L64]; linarith
    have z6 : f024 = 0 := by
      simp only [f024, q002, q112, q012, y3, y4, y7, z5, s2, s2', L2, L3, L4, L5, L6, L7, L8, L10, L12, L15, L16, L32, L64]; ring
    have hmu : mu = 0 := by
      simp only [mu, z1, z4, z6, L2, L3, L4, L5, L6, L7, L8, L10, L12, L15, L16, L32, L64, mul_zero, zero_div, sub_zero, add_zero]
    have hnu : nu = 0 := by
      simp only [nu, z1, hmu, z6, L2, L3, L4, L5, L6, L7, L8, L10, L12, L15, L16, L32, L64, mul_zero, zero_div, sub_zero, add_zero]
    have hla : lamda = 0 := by
      simp only [lamda, z1, hnu, z3, L2, L3, L4, L5, L6, L7, L8, L10, L12, L15, L16, L32, L64, mul_zero, zero_div, sub_zero, add_zero]
    rw [hS]
    simp only [hmu, hnu, hla, z2, z5, mul_zero, zero_div, sub_zero, add_zero, zero_add]
    simp only [f060, f240, f420, f600, f006, q000, q111, q001, q110, q222, q002, q112, q220, q221, q012, y1, y2, y3, y4, y5, y6, y7,
      s4, s2, s2', L2, L3, L4, L5, L6, L7, L8, L10, L12, L15, L16, L32, L64]
    refine MvPolynomial.funext fun v => ?_
    simp only [sexticH, watsonS6, jj, re2, re4, re6, sum3, map_add, map_sub, map_mul, map_pow, eval_C, eval_X, map_ofNat, map_zero]
    simp only [Fin.val_zero, Fin.val_one, Fin.val_two, Fin.isValue, Fin.reduceEq, if_true, if_false, map_mul, map_pow,
      eval_C, eval_X, map_ofNat, map_zero, s4, s2, s2']
    have p1 : φ 1 0 0 = -3 * φ 0 0 0 + 9 / 2 * φ 1 1 1 := by linarith
    have p2 : φ 0 1 1 = 9 / 2 * φ 0 0 0 - 3 * φ 1 1 1 := by linarith
    rw [p1, p2]
    ring

/-- The coefficients of a quartic Hamiltonian with an axis of symmetry. -/
theorem quarticH_top {E : ℕ → ℕ → ℝ} (hs : ∀ i j, E i j = E j i) (h11 : E 1 1 = E 0 0) (h01 : E 0 1 = E 0 0)
    (h12 : E 1 2 = E 0 2) : quarticH E = watsonS4 1 0 2 (-E 0 0) (2 * E 0 0 - 2 * E 0 2) (2 * E 0 2 - E 0 0 - E 2 2) 0 0 := by
  refine MvPolynomial.funext fun v => ?_
  simp only [quarticH, watsonS4, jj, re2, re4, sum3, map_add, map_sub, map_mul, map_pow, map_neg, eval_C, eval_X, map_ofNat,
    map_zero]
  simp only [Fin.val_zero, Fin.val_one, Fin.val_two, Fin.isValue, hs 1 0, hs 2 0, hs 2 1, h11, h01, h12]
  ring

/-- The quartic constants of a symmetric top, if the tensor has its symmetry. -/
theorem quartic_top {rotor : Rotor} {nvib : Nat} {rotcon primat freq : Vec ℝ} {wila : Mat ℝ} {q : Quartic ℝ}
    (hr : rotor = .oblateSymmTop ∨ rotor = .prolateSymmTop)
    (hk : rotor = .prolateSymmTop → (2 * rotcon 1 - rotcon 2 - rotcon 0) / (rotcon 2 - rotcon 0) < 0)
    (hq : Quartic.new rotor nvib rotcon primat freq wila = some q) :
    let E := tau4 nvib freq primat wila
    E 1 1 = E 0 0 → E 0 1 = E 0 0 → E 1 2 = E 0 2 →
    q.djw = -E 0 0 ∧ q.djkw = 2 * E 0 0 - 2 * E 0 2 ∧ q.dkw = 2 * E 0 2 - E 0 0 - E 2 2 ∧
    (rotor = .oblateSymmTop → q.dj = -E 0 0 ∧ q.djk = 2 * E 0 0 - 2 * E 0 2 ∧ q.dk = 2 * E 0 2 - E 0 0 - E 2 2 ∧
      q.sd1 = 0 ∧ q.sd2 = 0) := by
  intro E h11 h01 h12
  have hrep : ∃ irep, quarticRep rotor = some irep ∧ (rotor = .oblateSymmTop ∧ irep = 5 ∨ rotor = .prolateSymmTop ∧ irep = 0) := by
    rcases hr with rfl | rfl
    · exact ⟨5, rfl, Or.inl ⟨rfl, rfl⟩⟩
    · exact ⟨0, rfl, Or.inr ⟨rfl, rfl⟩⟩
  obtain ⟨irep, hrep, hirep⟩ := hrep
  have hl : rotor.spectroLinear = false := by rcases hr with rfl | rfl <;> rfl
  have hd : rotor ≠ .diatomic := by rcases hr with rfl | rfl <;> decide
  unfold Quartic.new at hq
  simp only [hrep, hl, hd, Option.bind_eq_bind, Option.bind_some, if_false, Bool.false_eq_true] at hq
  obtain ⟨⟨x, σ, z, w⟩, h1, h2⟩ := Option.bind_eq_some_iff.1 hq
  have hz : z = 2 ∨ rotor = .oblateSymmTop ∧ z = 5 := by
    unfold quarticAsym at h1
    rw [if_pos (by rcases hr with rfl | rfl <;> decide)] at h1
    dsimp only at h1
    split at h1
    · simp only [Option.some.injEq, Prod.mk.injEq] at h1
      exact Or.inl h1.2.2.1.symm
    · next hlt =>
      simp only [Option.some.injEq, Prod.mk.injEq] at h1
      rcases hirep with ⟨rfl, rfl⟩ | ⟨rfl, rfl⟩
      · exact Or.inr ⟨rfl, h1.2.2.1.symm⟩
      · exfalso
        apply hlt
        rw [lt_real, lit_real, lit_real]
        have := hk rfl
        have e : ∀ i, (princCart 0).2 i = (ICTOP.getD i []).getD 0 0 := fun _ => rfl
        norm_num [e, ICTOP] at this ⊢
        exact this
  simp only [Option.pure_def, Option.some.injEq] at h2
  clear h1 hk hq
  obtain ⟨P, hP⟩ : ∃ P, P = tauPrime (makeTau nvib freq primat wila) := ⟨_, rfl⟩
  have hE : ∀ i j, P i j = 4 * E i j := by
    intro i j
    show P i j = 4 * (tauPrime (makeTau nvib freq primat wila) i j / 4)
    rw [← hP]; ring
  have g01 : P 1 0 = P 0 1 := by
    have := tau4_comm nvib freq primat wila 1 0
    simp only [tau4, ← hP] at this
    linarith
  rw [← hP] at h2
  have L2 : (Arith.lit 2.0 : ℝ) = 2 := by rw [lit_real]; norm_num
  have L3 : (Arith.lit 3.0 : ℝ) = 3 := by rw [lit_real]; norm_num
  have L4 : (Arith.lit 4.0 : ℝ) = 4 := by rw [lit_real]; norm_num
  have L8 : (Arith.lit 8.0 : ℝ) = 8 := by rw [lit_real]; norm_num
  have L16 : (Arith.lit 16.0 : ℝ) = 16 := by rw [lit_real]; norm_num
  have e1 : q.djw = -E 0 0 ∧ q.djkw = 2 * E 0 0 - 2 * E 0 2 ∧ q.dkw = 2 * E 0 2 - E 0 0 - E 2 2 := by
    subst h2
    simp only [L2, L4]
    rcases hz with rfl | ⟨-, rfl⟩
    · simp only [show (princCart 2).1 0 = 0 from rfl, show (princCart 2).1 2 = 2 from rfl, hE]
      refine ⟨?_, ?_, ?_⟩ <;> ring
    · simp only [show (princCart 5).1 0 = 1 from rfl, show (princCart 5).1 2 = 2 from rfl, hE, h11, h12]
      refine ⟨?_, ?_, ?_⟩ <;> ring
  refine ⟨e1.1, e1.2.1, e1.2.2, fun ho => ?_⟩
  rcases hirep with ⟨rfl, rfl⟩ | ⟨rfl, rfl⟩
  swap
  · cases ho
  have e00 : quarticT 3 (princCart 5).1 P 0 0 = P 1 1 / 4 := by rw [← L4]; rfl
  have e11 : quarticT 3 (princCart 5).1 P 1 1 = P 0 0 / 4 := by rw [← L4]; rfl
  have e22 : quarticT 3 (princCart 5).1 P 2 2 = P 2 2 / 4 := by rw [← L4]; rfl
  have e01 : quarticT 3 (princCart 5).1 P 0 1 = P 1 0 / 4 := by rw [← L4]; rfl
  have e02 : quarticT 3 (princCart 5).1 P 0 2 = P 1 2 / 4 := by rw [← L4]; rfl
  have e12 : quarticT 3 (princCart 5).1 P 1 2 = P 0 2 / 4 := by rw [← L4]; rfl
  subst h2
  simp only [L2, L3, L4, L8, L16, e00, e11, e22, e01, e02, e12, g01, hE, h11, h01, h12]
  refine ⟨?_, ?_, ?_, ?_, ?_⟩ <;> ring

/-- The sum of the diagonal quartic constants of a prolate top belongs to axis 0. -/
theorem quartic_prolate_sum {nvib : Nat} {rotcon primat freq : Vec ℝ} {wila : Mat ℝ} {q : Quartic ℝ}
    (hq : Quartic.new .prolateSymmTop nvib rotcon primat freq wila = some q) :
    q.dj + q.djk + q.dk = -(tauPrime (makeTau nvib freq primat wila) 0 0 / 4) := by
  unfold Quartic.new at hq
  have hl : Rotor.prolateSymmTop.spectroLinear = false := rfl
  have hd : Rotor.prolateSymmTop ≠ .diatomic := by decide
  have hrep : quarticRep .prolateSymmTop = some 0 := rfl
  simp only [hrep, hl, hd, Option.bind_eq_bind, Option.bind_some, if_false, Bool.false_eq_true] at hq
  obtain ⟨⟨x, σ, z, w⟩, -, h2⟩ := Option.bind_eq_some_iff.1 hq
  simp only [Option.pure_def, Option.some.injEq] at h2
  obtain ⟨P, hP⟩ : ∃ P, P = tauPrime (makeTau nvib freq primat wila) := ⟨_, rfl⟩
  rw [← hP] at h2 ⊢
  have L2 : (Arith.lit 2.0 : ℝ) = 2 := by rw [lit_real]; norm_num
  have L3 : (Arith.lit 3.0 : ℝ) = 3 := by rw [lit_real]; norm_num
  have L4 : (Arith.lit 4.0 : ℝ) = 4 := by rw [lit_real]; norm_num
  have L05 : (Arith.lit 0.5 : ℝ) = 1 / 2 := by rw [lit_real]; norm_num
  have L25 : (Arith.lit 2.5 : ℝ) = 5 / 2 := by rw [lit_real]; norm_num
  have e22 : quarticT 3 (princCart 0).1 P 2 2 = P 0 0 / 4 := by rw [← L4]; rfl
  subst h2
  simp only [L2, L3, L05, L25, e22]
  ring

end Verif
