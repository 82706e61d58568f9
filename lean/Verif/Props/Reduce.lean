import Verif.Lemmas.SexticEnd

/-! C90, C91, C92: the distortion constants as coefficients of transformed Hamiltonians. -/

namespace Verif

open MvPolynomial

/-! ### C90: the sextic coefficients -/

/-- C90, in part: for an asymmetric top whose rotational constants differ by more than 1/200, the coefficients
`τ'/4` and the tensor of sextic coefficients describe what a canonical transformation makes of the Hamiltonian of
the molecule: the quartic and sextic terms odd in some component are removed, and what this does to the even
sextic terms is in the tensor. `wila` holds the derivatives of the inertia tensor. Missing: constants that are
different but closer than 1/200, for which the code drops some or all of the terms (`c90_violated`). -/
theorem c90_partial (nvib nfreq : Nat) (hn : nfreq ≠ 6) (rotcon primat freq : Vec ℝ) (wila : Mat ℝ) (zmat f3 : T3 ℝ)
    (h01 : 1 / 200 < |rotcon 0 - rotcon 1|) (h02 : 1 / 200 < |rotcon 0 - rotcon 2|)
    (h12 : 1 / 200 < |rotcon 1 - rotcon 2|)
    (hf : ∀ i j k, f3 i j k = f3 j i k ∧ f3 i j k = f3 i k j) :
    let D : RotorData := ⟨nvib, rotcon, primat, freq, fun v i j => wila v (pairIdx i j), zmat, f3⟩
    ∃ s t, SkewGen 3 s ∧ SkewGen 5 t ∧ Transforms s t (rotorH rotcon) D.H4 D.H6
      (quarticH fun i j => tauPrime (makeTau nvib freq primat wila) i j / 4)
      (sexticH (sexticScc .asymmTop nvib nfreq rotcon primat freq wila zmat f3)) :=
  scc_skew nvib nfreq rotcon primat freq wila zmat f3 hn ⟨h01, h02, h12⟩ (fun i j k => (hf i j k).1)
    (fun i j k => (hf i j k).2)

example : ∃ s t, SkewGen 3 s ∧ SkewGen 5 t ∧
    Transforms s t (rotorH fun i => (3 - i : ℝ)) (RotorData.H4 ⟨2, fun i => (3 - i : ℝ), fun _ => 1, fun _ => 2,
      fun v i j => ((fun v c => (v + c : ℝ)) v (pairIdx i j)), fun i j k => (i - j : ℝ), fun _ _ _ => 6⟩)
      (RotorData.H6 ⟨2, fun i => (3 - i : ℝ), fun _ => 1, fun _ => 2,
      fun v i j => ((fun v c => (v + c : ℝ)) v (pairIdx i j)), fun i j k => (i - j : ℝ), fun _ _ _ => 6⟩)
      (quarticH fun i j => tauPrime (makeTau 2 (fun _ => 2) (fun _ => 1) fun v c => (v + c : ℝ)) i j / 4)
      (sexticH (sexticScc .asymmTop 2 9 (fun i => (3 - i : ℝ)) (fun _ => 1) (fun _ => 2) (fun v c => (v + c : ℝ))
        (fun i j k => (i - j : ℝ)) fun _ _ _ => 6)) :=
  c90_partial 2 9 (by norm_num) (fun i => (3 - i : ℝ)) (fun _ => 1) (fun _ => 2) (fun v c => (v + c : ℝ))
    (fun i j k => (i - j : ℝ)) (fun _ _ _ => 6) (by norm_num) (by norm_num) (by norm_num) (fun _ _ _ => ⟨rfl, rfl⟩)

/-- The point on the x axis. -/
def ex : Fin 3 → ℝ := ![1, 0, 0]

/-- What a transformation that removes the terms `x³y` and `x³z` does to the sixth power of `x`, whatever the
generators are. -/
theorem transforms_axis {s t H4 H6 H4' H6' : Poly} {B : ℕ → ℝ} (h : Transforms s t (rotorH B) H4 H6 H4' H6')
    (h1 : eval ex (pderiv 1 H4') = 0) (h2 : eval ex (pderiv 2 H4') = 0) :
    ∃ u v : ℝ, eval ex (pderiv 1 H4) = 2 * (B 0 - B 1) * u ∧ eval ex (pderiv 2 H4) = 2 * (B 2 - B 0) * v ∧
      eval ex H6' = eval ex H6 + 1 / 2 * (eval ex (pderiv 1 H4) * u - eval ex (pderiv 2 H4) * v) := by
  obtain ⟨e4, e6⟩ := h
  have d1 : ∀ g : Poly, eval ex (pderiv 1 (bracket (rotorH B) g)) = 2 * (B 1 - B 0) * eval ex (pderiv 2 g) := by
    intro g
    simp only [bracket, rotorH, sum3, map_add, map_sub, map_mul, map_pow, Derivation.leibniz, Derivation.leibniz_pow,
      pderiv_C, pd, smul_eq_mul, nsmul_eq_mul, eval_C, eval_X]
    simp [ex]
    ring
  have d2 : ∀ g : Poly, eval ex (pderiv 2 (bracket (rotorH B) g)) = 2 * (B 0 - B 2) * eval ex (pderiv 1 g) := by
    intro g
    simp only [bracket, rotorH, sum3, map_add, map_sub, map_mul, map_pow, Derivation.leibniz, Derivation.leibniz_pow,
      pderiv_C, pd, smul_eq_mul, nsmul_eq_mul, eval_C, eval_X]
    simp [ex]
    ring
  have d0 : eval ex (bracket (rotorH B) t) = 0 := by
    rw [eval_bracket]
    simp only [rotorH, sum3, map_add, map_mul, map_pow, Derivation.leibniz, Derivation.leibniz_pow,
      pderiv_C, pd, smul_eq_mul, nsmul_eq_mul, eval_C, eval_X]
    simp [ex]
  have b0 : ∀ f g : Poly, eval ex (bracket f g) =
      eval ex (pderiv 1 f) * eval ex (pderiv 2 g) - eval ex (pderiv 2 f) * eval ex (pderiv 1 g) := by
    intro f g
    rw [eval_bracket]
    simp [ex]
  rw [e4, map_add, map_add, d1] at h1
  rw [e4, map_add, map_add, d2] at h2
  refine ⟨eval ex (pderiv 2 s), eval ex (pderiv 1 s), by linear_combination h1, by linear_combination h2, ?_⟩
  rw [e6]
  simp only [map_add, map_mul, eval_C, d0, b0 H4 s, b0 (bracket (rotorH B) s) s, d1, d2]
  linear_combination 1 / 2 * eval ex (pderiv 2 s) * h1 - 1 / 2 * eval ex (pderiv 1 s) * h2

theorem quarticH_axis (E : ℕ → ℕ → ℝ) : eval ex (pderiv 1 (quarticH E)) = 0 ∧ eval ex (pderiv 2 (quarticH E)) = 0 := by
  constructor <;>
  · simp only [quarticH, sum3, map_add, map_mul, map_pow, Derivation.leibniz, Derivation.leibniz_pow,
      pderiv_C, pd, smul_eq_mul, nsmul_eq_mul, eval_C, eval_X]
    simp [ex]

theorem oddP_axis (a00 a01 a02 a10 a11 a12 a20 a21 a22 : ℝ) :
    eval ex (pderiv 1 (oddP a00 a01 a02 a10 a11 a12 a20 a21 a22)) = a20 ∧
    eval ex (pderiv 2 (oddP a00 a01 a02 a10 a11 a12 a20 a21 a22)) = a10 := by
  constructor <;>
  · simp only [oddP, map_add, map_mul, map_pow, Derivation.leibniz, Derivation.leibniz_pow,
      pderiv_C, pd, smul_eq_mul, nsmul_eq_mul, eval_C, eval_X]
    simp [ex]

theorem HasParts.axis {f : Poly} {d0 d1 d2 p01 p02 p10 p12 p20 p21 q : ℝ}
    (h : HasParts f d0 d1 d2 p01 p02 p10 p12 p20 p21 q) : eval ex f = d0 := by
  obtain ⟨u, v, w, rfl⟩ := h
  simp [sexP, ex]

/-- Two constants within the tolerance of each other. -/
theorem near_none (nvib : Nat) (rotcon primat freq : Vec ℝ) (wila : Mat ℝ) (zmat f3 : T3 ℝ)
    (hne : rotcon 0 ≠ rotcon 1) (hnear : |rotcon 0 - rotcon 1| ≤ 1 / 10000)
    (h12 : ∀ i j k, f3 i j k = f3 j i k) (h23 : ∀ i j k, f3 i j k = f3 i k j)
    (t1 : makeTau nvib freq primat wila 0 0 0 1 ≠ 0) (t2 : makeTau nvib freq primat wila 0 0 0 2 = 0) (s t : Poly) :
    ¬ Transforms s t (rotorH rotcon) (rotorData nvib rotcon primat freq wila zmat f3).H4
      (rotorData nvib rotcon primat freq wila zmat f3).H6 (quarticH (tau4 nvib freq primat wila))
      (sexticH (sexticScc .asymmTop nvib 9 rotcon primat freq wila zmat f3)) := by
  intro h
  obtain ⟨τ, hτ⟩ : ∃ τ, τ = makeTau nvib freq primat wila := ⟨_, rfl⟩
  obtain ⟨c, hc⟩ : ∃ c, c = cMat 3 nvib freq primat wila := ⟨_, rfl⟩
  obtain ⟨cc, hcc⟩ : ∃ cc, cc = ccTensor nvib 3 freq c zmat rotcon := ⟨_, rfl⟩
  have hD := rotorData_tau nvib rotcon primat freq wila zmat f3
  rw [← hτ] at hD t1 t2
  have hS : TauSymm τ := hτ ▸ tau_symm nvib freq primat wila
  have h4 := quartic_split (rotorData nvib rotcon primat freq wila zmat f3) (hD ▸ hS)
    (fun i j => if i = j then τ i i i i / 4 else (τ i i j j + 2 * τ i j i j) / 4)
    (by rw [hD]; rfl) (by rw [hD]; rfl) (by rw [hD]; rfl)
    (by rw [hD]; norm_num [tau_canon hS]; ring) (by rw [hD]; norm_num [tau_canon hS]; ring)
    (by rw [hD]; norm_num [tau_canon hS]; ring)
  have a1 : eval ex (pderiv 1 (rotorData nvib rotcon primat freq wila zmat f3).H4) = τ 0 0 0 1 := by
    rw [h4, map_add, map_add, (quarticH_axis _).1, (oddP_axis _ _ _ _ _ _ _ _ _).1, hD, zero_add]
  have a2 : eval ex (pderiv 2 (rotorData nvib rotcon primat freq wila zmat f3).H4) = 0 := by
    rw [h4, map_add, map_add, (quarticH_axis _).2, (oddP_axis _ _ _ _ _ _ _ _ _).2, hD, zero_add, t2]
  obtain ⟨u, v, e1, -, e3⟩ := transforms_axis h (quarticH_axis _).1 (quarticH_axis _).2
  have e6 := (raw_parts nvib rotcon primat freq wila zmat f3 h12 h23 hτ hc hcc).axis
  obtain ⟨p, hp⟩ : ∃ p : SccIn ℝ, p = ⟨nvib, τ, rotcon, freq, cc, f3, c⟩ := ⟨_, rfl⟩
  have hφ : sexticScc .asymmTop nvib 9 rotcon primat freq wila zmat f3 = scc p .asymmTop 3 9 := by
    rw [hp, hcc, hc, hτ]; rfl
  have hv : eval ex (sexticH (sexticScc .asymmTop nvib 9 rotcon primat freq wila zmat f3)) = sccDiag p 3 false 0 := by
    rw [sexticH_eq, hφ, (scc_values p (by norm_num)).1 0 (by norm_num)]
    simp [sexP, ex]
  have near : Arith.lt SCC_TOL (Arith.abs (rotcon 0 - rotcon 1)) = false := by
    rw [Bool.eq_false_iff, ne_eq, lt_real, SCC_TOL, abs_real, lit_real, not_lt]
    refine hnear.trans (le_of_eq ?_)
    norm_num
  have t2' : τ 2 0 0 0 = 0 := by rw [(hS 0 0 2 0).2.2, (hS 0 0 0 2).2.1, t2]
  have hval : sccDiag p 3 false 0 = eval ex (rotorData nvib rotcon primat freq wila zmat f3).H6 := by
    rw [e6]
    simp only [hp, sccDiag, tri_diag, List.range, List.range.loop, List.foldl_cons, List.foldl_nil, ne_eq, not_true_eq_false,
      if_false, not_false_eq_true, if_true, near, sumTo_real, Bool.false_eq_true, zero_ne_one, OfNat.zero_ne_ofNat, t2', sq_real,
      lit_real, ioff]
    norm_num
    ring
  rw [hv, hval, a1, a2] at e3
  rw [a1] at e1
  have hd : rotcon 0 - rotcon 1 ≠ 0 := sub_ne_zero.2 hne
  have hu : τ 0 0 0 1 * u = 0 := by linear_combination -2 * e3
  rcases mul_eq_zero.1 hu with h0 | h0
  · exact t1 h0
  · rw [h0, mul_zero] at e1
    exact t1 e1

/-- Constants that differ by 5e-5 and by about 1/2. -/
noncomputable def nearB : Vec ℝ := fun i => if i = 0 then 1 else if i = 1 then 1 - 1 / 20000 else 1 / 2

/-- One mode that changes the moment of axis 0 and turns the axes 0 and 1. -/
noncomputable def nearWila : Mat ℝ := fun _ c => if c = 0 ∨ c = 1 then 1 else 0

/-- C90: two constants within the tolerance 1e-4 of each other. The term of the sextic coefficient that belongs to
their difference is left out, and no transformation at all connects the Hamiltonians. -/
theorem c90_violated : nearB 0 ≠ nearB 1 ∧ nearB 0 ≠ nearB 2 ∧ nearB 1 ≠ nearB 2 ∧
    let D : RotorData := ⟨1, nearB, fun _ => 1, fun _ => 1, fun v i j => nearWila v (pairIdx i j), fun _ _ _ => 0,
      fun _ _ _ => 0⟩
    ¬ ∃ s t, Transforms s t (rotorH nearB) D.H4 D.H6
      (quarticH fun i j => tauPrime (makeTau 1 (fun _ => 1) (fun _ => 1) nearWila) i j / 4)
      (sexticH (sexticScc .asymmTop 1 9 nearB (fun _ => 1) (fun _ => 1) nearWila (fun _ _ _ => 0) (fun _ _ _ => 0))) := by
  have h01 : nearB 0 ≠ nearB 1 := by norm_num [nearB]
  have hn : |nearB 0 - nearB 1| ≤ 1 / 10000 := by norm_num [nearB]
  have t1 : makeTau 1 (fun _ => 1) (fun _ => 1) nearWila 0 0 0 1 ≠ 0 := by
    rw [c44_value, tauSpec]; norm_num [pairIdx, ioff, nearWila]
  have t2 : makeTau 1 (fun _ => 1) (fun _ => 1) nearWila 0 0 0 2 = 0 := by
    rw [c44_value, tauSpec]; norm_num [pairIdx, ioff, nearWila]
  refine ⟨h01, by norm_num [nearB], by norm_num [nearB], ?_⟩
  rintro D ⟨s, t, h⟩
  exact near_none 1 nearB (fun _ => 1) (fun _ => 1) nearWila (fun _ _ _ => 0) (fun _ _ _ => 0) h01 hn
    (fun _ _ _ => rfl) (fun _ _ _ => rfl) t1 t2 s t h

/-! ### C91: the A reduction -/

theorem tau4_symm (nvib : Nat) (freq primat : Vec ℝ) (wila : Mat ℝ) (i j : Nat) :
    tau4 nvib freq primat wila i j = tau4 nvib freq primat wila j i := by
  unfold tau4
  rw [c44_prime_symmetric]

/-- C91: the A-reduced constants of an asymmetric top. The Hamiltonian with the reported quartic and sextic
constants is what a canonical transformation makes of the one with the coefficients `τ'/4` and the sextic
coefficients, without changing the rotational constants. The axes are those of the representation: axis 0 is
z, axis 1 is x, axis 2 is y. -/
theorem c91_reduction (nvib nfreq : Nat) (rotcon primat freq : Vec ℝ) (wila : Mat ℝ) (zmat f3 : T3 ℝ) (q : Quartic ℝ)
    (hq : Quartic.new .asymmTop nvib rotcon primat freq wila = some q) (hB : rotcon 1 ≠ rotcon 2) :
    let S := Sextic.new .asymmTop nvib nfreq rotcon primat freq wila zmat f3
    ∃ s t, OrthoGen 3 s ∧ OrthoGen 5 t ∧ Transforms s t (rotorH rotcon)
      (quarticH (tau4 nvib freq primat wila)) (sexticH (sexticScc .asymmTop nvib nfreq rotcon primat freq wila zmat f3))
      (watsonA4 1 2 0 q.delj q.deljk q.delk q.sdelj q.sdelk)
      (watsonA6 1 2 0 S.phij S.phijk S.phikj S.phik S.sphij S.sphijk S.sphik) := by
  intro S
  obtain ⟨t400, t220, t040, t202, t022, t004, f600, f420, f240, f060, f402, f222, f042, f204, f024, f006,
    h1, h2, h3, h4, h5, h6, g1, g2, g3, g4, g5, g6, g7, g8, g9, g10, σ, β, b020, μ, ν, l, hσ, hβ, -,
    k1, k2, k3, k4, k5, k6, k7, -⟩ := sextic_asymm nvib nfreq rotcon primat freq wila zmat f3
  have hb : β ≠ 0 := by rw [hβ]; exact div_ne_zero (sub_ne_zero.2 hB) (by norm_num)
  rw [quarticH_cyl _ (tau4_symm nvib freq primat wila) _ _ _ _ _ _ h1 h2 h3 h4 h5 h6,
    sexticH_cyl _ _ _ _ _ _ _ _ _ _ _ g1 g2 g3 g4 g5 g6 g7 g8 g9 g10, rotorH_cyl rotcon hB, ← hσ, ← hβ]
  obtain ⟨qσ, q6, qjn, qjkn, qkn, qsjn, q5, qd1, qd2, qd3, qd4, qd5, -⟩ := quartic_asymm hq
  have a1 : q.delj = -t400 - 2 * t004 := by
    rw [qd1, qjn, q6, h1, h6]; simp only [tau4]; ring
  have a2 : q.deljk = -t220 + 12 * t004 := by
    rw [qd2, qjkn, qjn, q6, h2, h1, h6]; simp only [tau4]; ring
  have a3 : q.delk = -t040 - 10 * t004 := by
    rw [qd3, qkn, qjkn, qjn, q6, h3, h2, h1, h6]; simp only [tau4]; ring
  have a4 : q.sdelj = -t202 := by rw [qd4, qsjn, h4]; simp only [tau4]; ring
  have a5 : q.sdelk = -t022 - 4 * σ * t004 := by
    rw [qd5, q5, q6, qsjn, h5, h4, h6, qσ, ← hσ]; simp only [tau4]; ring
  have A4 : watsonA4 1 2 0 q.delj q.deljk q.delk q.sdelj q.sdelk =
      cyl4 1 2 0 (-q.delj) (-q.deljk) (-q.delk) (-q.sdelj) (-q.sdelk) 0 := by
    simp only [watsonA4, cyl4, map_neg, map_zero]; ring
  have A6 : watsonA6 1 2 0 S.phij S.phijk S.phikj S.phik S.sphij S.sphijk S.sphik =
      cyl6 1 2 0 S.phij S.phijk S.phikj S.phik S.sphij S.sphijk S.sphik 0 0 0 := by
    simp only [watsonA6, cyl6, map_zero]; ring
  rw [A4, A6]
  refine ⟨_, _, orthoGen_three _, orthoGen_five _ _ _, reduce _ _ _ (-(2 * t004 / β))
    ((2 * t004 / β * t202 - 2 * f204) / β)
    (2 / 3 * (-f024 - (2 * t004 / β) * t022 / 2 - β * σ * (2 * t004 / β) ^ 2 / 2 -
      8 * σ * (f006 - (2 * t004 / β) * t004 + β * (2 * t004 / β) ^ 2 / 4)) / β)
    (-4 * (f006 - (2 * t004 / β) * t004 + β * (2 * t004 / β) ^ 2 / 4) / β)
    _ _ _ _ _ _ _ _ _ _ _ _ _ _ _ _ ?_ ?_ ?_ ?_ ?_ ?_ ?_ ?_ ?_ ?_ ?_ ?_ ?_ ?_ ?_ ?_⟩
  · rw [a1]; field_simp; ring
  · rw [a2]; field_simp; ring
  · rw [a3]; field_simp; ring
  · rw [a4]; ring
  · rw [a5]; field_simp; ring
  · field_simp; ring
  · rw [k1]; field_simp; ring
  · rw [k2]; field_simp; ring
  · rw [k3, k2]; field_simp; ring
  · rw [k4, k2]; field_simp; ring
  · rw [k5]; field_simp; ring
  · rw [k6]; field_simp; ring
  · rw [k7]; field_simp; ring
  · field_simp; ring
  · field_simp; ring
  · field_simp; ring

/-- One mode that changes the moments of the axes 1 and 2 by different amounts and turns them. -/
def exampleWila : Mat ℝ := fun _ c => if c = 0 ∨ c = 4 ∨ c = 5 then 1 else if c = 2 then 3 else 0

example : ∃ q, Quartic.new .asymmTop 1 (fun i => if i = 0 then 5 else if i = 1 then 3 else 2) (fun _ => 1) (fun _ => 1)
    exampleWila = some q ∧ ∃ s t, OrthoGen 3 s ∧ OrthoGen 5 t ∧
    (let S := Sextic.new .asymmTop 1 9 (fun i => if i = 0 then 5 else if i = 1 then 3 else 2) (fun _ => 1) (fun _ => 1)
      exampleWila (fun _ _ _ => 0) (fun _ _ _ => 1)
    Transforms s t (rotorH fun i => if i = 0 then 5 else if i = 1 then 3 else 2)
      (quarticH (tau4 1 (fun _ => 1) (fun _ => 1) exampleWila)) (sexticH (sexticScc .asymmTop 1 9
        (fun i => if i = 0 then 5 else if i = 1 then 3 else 2) (fun _ => 1) (fun _ => 1) exampleWila (fun _ _ _ => 0)
        (fun _ _ _ => 1)))
      (watsonA4 1 2 0 q.delj q.deljk q.delk q.sdelj q.sdelk)
      (watsonA6 1 2 0 S.phij S.phijk S.phikj S.phik S.sphij S.sphijk S.sphik)) := by
  obtain ⟨q, hq⟩ := Option.isSome_iff_exists.1 ((quartic_isSome .asymmTop 1
    (fun i => if i = 0 then 5 else if i = 1 then 3 else (2 : ℝ)) (fun _ => 1) (fun _ => 1) exampleWila).2 (by decide))
  exact ⟨q, hq, c91_reduction 1 9 _ _ _ _ _ _ q hq (by norm_num)⟩

/-! ### C92: the S reduction -/

/-- The S-reduced constants eliminate the terms in `T022`, `Φ222`, `Φ042` and `Φ024`. -/
theorem s_reduce (b200 : ℝ) {β σ b020 t400 t220 t040 t202 t022 t004 f600 f420 f240 f060 f402 f222 f042 f204 f024 f006 μ ν l
    DJ DJK DK d1 d2 HJ HJK HKJ HK H1 H2 H3 : ℝ} (hσ0 : σ ≠ 0) (hβ0 : β ≠ 0) (hbβ : b020 = 2 * σ * β)
    (a1 : DJ = -t400 + t022 / 2 / σ) (a2 : DJK = -t220 - 3 * t022 / σ) (a3 : DK = -t040 + 5 / 2 * t022 / σ)
    (a4 : d1 = t202) (a5 : d2 = t004 + t022 / 4 / σ)
    (hμ : μ = (σ * f042 - 9 * f024 / 8 + (-2 * σ * t040 + (σ * σ + 3) * t022 - 5 * σ * t004) * t022 / b020) /
        (2 * σ * σ + 27 / 16))
    (hν : ν = 3 * μ / (16 * σ) + f024 / (8 * σ) + t004 * t022 / b020)
    (hl : l = 5 * ν / σ + f222 / (σ * 2) + (-t220 / (σ * 2) + t202 - t022 / (σ * σ) - 2 * t004 / σ) * t022 / b020)
    (k1 : HJ = f600 - l) (k2 : HJK = f420 + 6 * l - 3 * μ) (k3 : HKJ = f240 - 5 * l + 10 * μ)
    (k4 : HK = f060 - 7 * μ) (k5 : H1 = f402 - ν) (k6 : H2 = f204 + l / 2) (k7 : H3 = f006 + ν) :
    ∃ s t, OrthoGen 3 s ∧ OrthoGen 5 t ∧ Transforms s t (cyl2 1 2 0 b200 β σ)
      (cyl4 1 2 0 t400 t220 t040 t202 t022 t004) (cyl6 1 2 0 f600 f420 f240 f060 f402 f222 f042 f204 f024 f006)
      (cyl4 1 2 0 (-DJ) (-DJK) (-DK) d1 0 d2) (cyl6 1 2 0 HJ HJK HKJ HK H1 0 0 H2 0 H3) := by
  have hdiv : 2 * σ * σ + 27 / 16 ≠ 0 := by
    have := mul_self_nonneg σ
    intro h
    nlinarith
  have hν' : ν * σ = 3 * μ / 16 + f024 / 8 + σ * t004 * t022 / b020 := by
    rw [hν]; field_simp
  have hμ' : μ * (2 * σ * σ + 27 / 16) = σ * f042 - 9 * f024 / 8 +
      (-2 * σ * t040 + (σ * σ + 3) * t022 - 5 * σ * t004) * t022 / b020 := by
    rw [hμ, div_mul_cancel₀ _ hdiv]
  refine ⟨_, _, orthoGen_three _, orthoGen_five _ _ _, reduce _ _ _ (t022 / (2 * σ * β))
    ((l - t022 / (2 * σ * β) * t202) / β)
    ((μ - t022 / (2 * σ * β) * t022 + β * σ * (t022 / (2 * σ * β)) ^ 2) / β)
    (4 * (ν - t022 / (2 * σ * β) * t004 - β * (t022 / (2 * σ * β)) ^ 2 / 4) / β)
    _ _ _ _ _ _ _ _ _ _ _ _ _ _ _ _ ?_ ?_ ?_ ?_ ?_ ?_ ?_ ?_ ?_ ?_ ?_ ?_ ?_ ?_ ?_ ?_⟩
  · rw [a1]; field_simp; ring
  · rw [a2]; field_simp; ring
  · rw [a3]; field_simp; ring
  · rw [a4]
  · field_simp; ring
  · rw [a5]; field_simp; ring
  · rw [k1]; field_simp; ring
  · rw [k2]; field_simp; ring
  · rw [k3]; field_simp; ring
  · rw [k4]; field_simp; ring
  · rw [k5]; field_simp; ring
  · rw [hl, hbβ]; field_simp; ring
  · rw [hbβ] at hν' hμ'
    have e1 : f024 = 8 * (ν * σ - 3 * μ / 16 - σ * t004 * t022 / (2 * σ * β)) := by rw [hν']; ring
    rw [e1] at hμ'
    have e2 : f042 = (μ * (2 * σ * σ + 27 / 16) + 9 * (8 * (ν * σ - 3 * μ / 16 - σ * t004 * t022 / (2 * σ * β))) / 8 -
      (-2 * σ * t040 + (σ * σ + 3) * t022 - 5 * σ * t004) * t022 / (2 * σ * β)) / σ := by
      rw [hμ']; field_simp; ring
    rw [e2]
    field_simp
    ring
  · rw [k6]; field_simp; ring
  · rw [hbβ] at hν'
    have e1 : f024 = 8 * (ν * σ - 3 * μ / 16 - σ * t004 * t022 / (2 * σ * β)) := by rw [hν']; ring
    rw [e1]
    field_simp
    ring
  · rw [k7]; field_simp; ring

/-- C92: the S-reduced constants of an asymmetric top. The Hamiltonian with the reported quartic and sextic
constants is what a canonical transformation makes of the one with the coefficients `τ'/4` and the sextic
coefficients. The rigid rotor `B` has the asymmetry `σ` of the rotational constants, and its difference between
the z axis and the mean of the others is that of the rotational constants plus `10 T004` (`r6` is `T004`), the
correction the code makes; where `T004` vanishes it is the rotor itself. -/
theorem c92_reduction (nvib nfreq : Nat) (rotcon primat freq : Vec ℝ) (wila : Mat ℝ) (zmat f3 : T3 ℝ) (q : Quartic ℝ)
    (hq : Quartic.new .asymmTop nvib rotcon primat freq wila = some q) (hσ0 : q.sigma ≠ 0) (B : Vec ℝ)
    (h0 : B 0 - (B 1 + B 2) / 2 = rotcon 0 - (rotcon 1 + rotcon 2) / 2 + 10 * q.r6)
    (hne : B 0 - (B 1 + B 2) / 2 ≠ 0) (hB : (2 * B 0 - B 1 - B 2) = q.sigma * (B 1 - B 2)) :
    let S := Sextic.new .asymmTop nvib nfreq rotcon primat freq wila zmat f3
    ∃ s t, OrthoGen 3 s ∧ OrthoGen 5 t ∧ Transforms s t (rotorH B)
      (quarticH (tau4 nvib freq primat wila)) (sexticH (sexticScc .asymmTop nvib nfreq rotcon primat freq wila zmat f3))
      (watsonS4 1 2 0 q.dj q.djk q.dk q.sd1 q.sd2)
      (watsonS6 1 2 0 S.hj S.hjk S.hkj S.hk S.h1 S.h2 S.h3) := by
  intro S
  obtain ⟨t400, t220, t040, t202, t022, t004, f600, f420, f240, f060, f402, f222, f042, f204, f024, f006,
    h1, h2, h3, h4, h5, h6, g1, g2, g3, g4, g5, g6, g7, g8, g9, g10, σ, β', b020, μ, ν, l, hσ, -, hb020,
    -, -, -, -, -, -, -, hμ, hν, hl, k1, k2, k3, k4, k5, k6, k7⟩ := sextic_asymm nvib nfreq rotcon primat freq wila zmat f3
  obtain ⟨qσ, q6, qjn, qjkn, qkn, qsjn, q5, -, -, -, -, -, qd1, qd2, qd3, qd4, qd5, -⟩ := quartic_asymm hq
  have e6 : q.r6 = t004 := by rw [q6, h6]; simp only [tau4]; ring
  have eσ : q.sigma = σ := by rw [qσ, hσ]
  rw [eσ] at hσ0 hB
  have hb : b020 = B 0 - (B 1 + B 2) / 2 := by rw [hb020, h0, e6]; ring
  have hb0 : b020 ≠ 0 := hb ▸ hne
  have hB12 : B 1 ≠ B 2 := by
    intro h
    rw [h, sub_self, mul_zero] at hB
    apply hne
    rw [h]
    linear_combination hB / 2
  have hBd : B 1 - B 2 ≠ 0 := sub_ne_zero.2 hB12
  have hσB : (2 * B 0 - B 1 - B 2) / (B 1 - B 2) = σ := by rw [hB]; field_simp
  obtain ⟨β, hβ⟩ : ∃ β, β = (B 1 - B 2) / 4 := ⟨_, rfl⟩
  have hβ0 : β ≠ 0 := by rw [hβ]; exact div_ne_zero hBd (by norm_num)
  have hbβ : b020 = 2 * σ * β := by rw [hb, hβ]; linear_combination hB / 2
  rw [quarticH_cyl _ (tau4_symm nvib freq primat wila) _ _ _ _ _ _ h1 h2 h3 h4 h5 h6,
    sexticH_cyl _ _ _ _ _ _ _ _ _ _ _ g1 g2 g3 g4 g5 g6 g7 g8 g9 g10, rotorH_cyl B hB12, hσB, ← hβ]
  have r5 : 2 * q.r5 = t022 := by rw [q5, qsjn, h5, h4]; simp only [tau4]; ring
  have r5' : q.r5 = t022 / 2 := by linear_combination r5 / 2
  have a1 : q.dj = -t400 + t022 / 2 / σ := by
    rw [qd1, qjn, r5', eσ, h1]; simp only [tau4]; ring
  have a2 : q.djk = -t220 - 3 * t022 / σ := by
    rw [qd2, qjkn, qjn, r5', eσ, h2, h1]; simp only [tau4]; ring
  have a3 : q.dk = -t040 + 5 / 2 * t022 / σ := by
    rw [qd3, qkn, qjkn, qjn, r5', eσ, h3, h2, h1]; simp only [tau4]; ring
  have a4 : q.sd1 = t202 := by rw [qd4, qsjn, h4]; simp only [tau4]; ring
  have a5 : q.sd2 = t004 + t022 / 4 / σ := by rw [qd5, e6, r5', eσ]; field_simp; ring
  have A4 : watsonS4 1 2 0 q.dj q.djk q.dk q.sd1 q.sd2 =
      cyl4 1 2 0 (-q.dj) (-q.djk) (-q.dk) q.sd1 0 q.sd2 := by
    simp only [watsonS4, cyl4, map_neg, map_zero]; ring
  have A6 : watsonS6 1 2 0 S.hj S.hjk S.hkj S.hk S.h1 S.h2 S.h3 =
      cyl6 1 2 0 S.hj S.hjk S.hkj S.hk S.h1 0 0 S.h2 0 S.h3 := by
    simp only [watsonS6, cyl6, map_zero]; ring
  rw [A4, A6]
  exact s_reduce _ hσ0 hβ0 hbβ a1 a2 a3 a4 a5 hμ hν hl k1 k2 k3 k4 k5 k6 k7

example : ∃ q, Quartic.new .asymmTop 1 (fun i => if i = 0 then 5 else if i = 1 then 3 else 2) (fun _ => 1) (fun _ => 1)
    exampleWila = some q ∧ q.r5 ≠ 0 ∧ ∃ s t, OrthoGen 3 s ∧ OrthoGen 5 t ∧
    (let S := Sextic.new .asymmTop 1 9 (fun i => if i = 0 then 5 else if i = 1 then 3 else 2) (fun _ => 1) (fun _ => 1)
      exampleWila (fun _ _ _ => 0) (fun _ _ _ => 1)
    Transforms s t (rotorH fun i => if i = 0 then 5 else if i = 1 then 3 else 2)
      (quarticH (tau4 1 (fun _ => 1) (fun _ => 1) exampleWila)) (sexticH (sexticScc .asymmTop 1 9
        (fun i => if i = 0 then 5 else if i = 1 then 3 else 2) (fun _ => 1) (fun _ => 1) exampleWila (fun _ _ _ => 0)
        (fun _ _ _ => 1)))
      (watsonS4 1 2 0 q.dj q.djk q.dk q.sd1 q.sd2)
      (watsonS6 1 2 0 S.hj S.hjk S.hkj S.hk S.h1 S.h2 S.h3)) := by
  obtain ⟨q, hq⟩ := Option.isSome_iff_exists.1 ((quartic_isSome .asymmTop 1
    (fun i => if i = 0 then 5 else if i = 1 then 3 else (2 : ℝ)) (fun _ => 1) (fun _ => 1) exampleWila).2 (by decide))
  obtain ⟨hσ, h6, -, -, -, hs, h5, -⟩ := quartic_asymm hq
  have h6' : q.r6 = 0 := by
    rw [h6]
    norm_num [tauPrime, c44_value, tauSpec, exampleWila, pairIdx, ioff, lit_real]
  have h5' : q.r5 ≠ 0 := by
    intro h
    rw [h, hs] at h5
    norm_num [tauPrime, c44_value, tauSpec, exampleWila, pairIdx, ioff, lit_real] at h5
  have hσ' : q.sigma = 5 := by rw [hσ]; norm_num
  refine ⟨q, hq, h5', c92_reduction 1 9 _ _ _ _ _ _ q hq (by rw [hσ']; norm_num) _ ?_ ?_ ?_⟩
  · rw [h6']; norm_num
  · norm_num
  · rw [hσ']; norm_num

end Verif
