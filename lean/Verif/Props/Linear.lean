import Verif.Lemmas.SexticLinear

/-! C95: the distortion constants of linear and diatomic molecules. -/

namespace Verif

open MvPolynomial

/-- Rotations about the axis of a linear molecule do not change the Hamiltonian of a molecule that does not rotate
about this axis. -/
def Axial (H : Poly) : Prop := ∀ c s : ℝ, c ^ 2 + s ^ 2 = 1 → ∀ x y : ℝ,
  eval ![c * x - s * y, s * x + c * y, 0] H = eval ![x, y, 0] H

theorem single0 (r : ℝ) : (Pi.single 0 r : Fin 3 → ℝ) = ![r, 0, 0] := by
  funext i; fin_cases i <;> simp

theorem single1 (r : ℝ) : (Pi.single 1 r : Fin 3 → ℝ) = ![0, r, 0] := by
  funext i; fin_cases i <;> simp

/-- An axial polynomial is known from its values on one axis. -/
theorem Axial.of_first {H : Poly} (h : Axial H) {k : ℕ} {d : ℝ} (hk : ∀ r, eval (Pi.single 0 r) H = r ^ (2 * k) * d)
    (x y : ℝ) : eval ![x, y, 0] H = d * (x ^ 2 + y ^ 2) ^ k := by
  obtain ⟨r, hr, hr0⟩ : ∃ r : ℝ, r ^ 2 = x ^ 2 + y ^ 2 ∧ 0 ≤ r :=
    ⟨√(x ^ 2 + y ^ 2), Real.sq_sqrt (by positivity), Real.sqrt_nonneg _⟩
  rcases eq_or_ne r 0 with h0 | h0
  · have hx : x = 0 := by nlinarith [sq_nonneg x, sq_nonneg y, h0]
    have hy : y = 0 := by nlinarith [sq_nonneg x, sq_nonneg y, h0]
    have := hk 0
    rw [single0] at this
    rw [hx, hy, this]
    rcases k with _ | k <;> simp
  · have := h (x / r) (y / r) (by field_simp; linarith) r 0
    rw [← single0, hk, show x / r * r - y / r * 0 = x by field_simp; ring, show y / r * r + x / r * 0 = y by field_simp; ring]
      at this
    rw [this, ← hr, ← pow_mul]
    ring

theorem Axial.of_second {H : Poly} (h : Axial H) {k : ℕ} {d : ℝ} (hk : ∀ r, eval (Pi.single 1 r) H = r ^ (2 * k) * d)
    (x y : ℝ) : eval ![x, y, 0] H = d * (x ^ 2 + y ^ 2) ^ k := by
  refine h.of_first (fun r => ?_) x y
  have := h 0 1 (by norm_num) r 0
  rw [← single0] at this
  rw [← this, ← hk, single1]
  norm_num

section

variable (nvib nfreq : Nat) (rotcon primat freq : Vec ℝ) (wila : Mat ℝ) (zmat f3 : T3 ℝ)

/-- The diagonal entry of the sextic tensor with two axes is the coefficient of the sixth power. `I` and `B` are the
moments and constants in the order of the axes. -/
theorem sccDiag_axis (B I : Vec ℝ) (lin : Bool) (k : Fin 3) (hk : k.val < 2) (hB : B k = rotcon k)
    (hl : lin = true ∨ B 0 = B 1) (hz : ∀ v < nvib, wila v (pairIdx 2 k) = 0) (r : ℝ) :
    eval (Pi.single k r) (RotorData.H6 ⟨nvib, B, I, freq, fun v i j => wila v (pairIdx i j), zmat, f3⟩) =
      r ^ 6 * sccDiag ⟨nvib, makeTau nvib freq I wila, B, freq,
        ccTensor nvib 2 freq (cMat 2 nvib freq I wila) zmat rotcon, f3, cMat 2 nvib freq I wila⟩ 2 lin k := by
  obtain ⟨c, hc⟩ : ∃ c, c = cMat 2 nvib freq I wila := ⟨_, rfl⟩
  obtain ⟨cc, hcc⟩ : ∃ cc, cc = ccTensor nvib 2 freq c zmat rotcon := ⟨_, rfl⟩
  obtain ⟨D, hD⟩ : ∃ D : RotorData, D = ⟨nvib, B, I, freq, fun v i j => wila v (pairIdx i j), zmat, f3⟩ := ⟨_, rfl⟩
  have hτ : D.τ = makeTau nvib freq I wila := hD ▸ rotorData_tau nvib B I freq wila zmat f3
  have ht2 : makeTau nvib freq I wila 2 k k k = 0 := by
    rw [c44_value, tauSpec, Finset.sum_eq_zero, mul_zero]
    intro v hv
    rw [hz v (Finset.mem_range.1 hv), zero_mul, zero_div]
  have hp : pairIdx k k = ioff (k + 1 + 1) - 1 := by
    fin_cases k <;> simp [pairIdx, ioff] at hk ⊢
  have hcv : ∀ v < nvib, c v (pairIdx k k) = wila v (pairIdx k k) /
      (2 * I k * I k * (0.1722212503791076 ^ 2 * freq v) ^ (3 / 2 : ℝ)) := by
    intro v hv
    rw [hc]
    have := c_values2 freq I wila hv (x := k) (y := k) hk le_rfl
    have e : ioff ((k : ℕ) + 1) + k = pairIdx k k := by simp [pairIdx]
    rwa [e] at this
  have hccv : ∀ i < nvib, cc i k k k = ∑ j ∈ Finset.range nvib,
      freq j ^ (3 / 2 : ℝ) * (1 / freq j ^ 2 + 2 / freq i ^ 2) / √(freq i) *
        (c j (pairIdx k k) * (zmat j i k * rotcon k)) := by
    intro i hi
    rw [hcc, cc_values2 freq c zmat rotcon hi hk, hp]
    simp only [ccDiag, ccFac, sumTo_real, lit_real, sq_real, sqrt_real, powf15_real]
    simp only [div_eq_mul_inv, Finset.sum_mul]
    refine Finset.sum_congr rfl fun j _ => ?_
    norm_num
    ring
  have near : Arith.lt SCC_TOL (Arith.abs (0 : ℝ)) = false := by
    rw [Bool.eq_false_iff, ne_eq, lt_real, SCC_TOL, abs_real, lit_real]
    norm_num
  have hhe : sccDiag ⟨nvib, makeTau nvib freq I wila, B, freq, cc, f3, c⟩ 2 lin k =
      3 / 16 * (∑ w : Fin 3, D.τ w k k k ^ 2 / B w) -
      2 * (∑ i ∈ Finset.range nvib, freq i * cc i k k k ^ 2) +
      1 / 6 * tri nvib f3 (c · (pairIdx k k)) (c · (pairIdx k k)) (c · (pairIdx k k)) := by
    have h4 : (if lin then (Arith.lit 0.0 : ℝ) else
        (List.range 2).foldl (fun v y => if (k : ℕ) ≠ y then
          if Arith.lt SCC_TOL (Arith.abs (B k - B y)) then v + sq (makeTau nvib freq I wila y k k k) / (B k - B y) else v
          else v) (Arith.lit 0.0)) = 0 := by
      rcases hl with rfl | h01
      · norm_num [lit_real]
      · cases lin
        · fin_cases k
          · norm_num [List.range, List.range.loop, h01, near, lit_real]
          · norm_num [List.range, List.range.loop, h01, near, lit_real]
          · simp at hk
        · norm_num [lit_real]
    simp only [sccDiag]
    rw [h4, ← hp, tri_diag, hτ, sum3]
    simp only [sumTo_real, sq_real, lit_real, Fin.val_zero, Fin.val_one, Fin.val_two,
      Fin.isValue, ht2, Finset.sum_range_succ _ 1, Finset.sum_range_succ _ 0, Finset.sum_range_zero]
    norm_num
    ring
  rw [← hc, ← hcc, hhe, ← hD, H6_axis, tri, hD]
  refine congrArg _ (congrArg₂ _ (congrArg₂ _ rfl (congrArg _ ?_)) (congrArg _ ?_))
  · refine Finset.sum_congr rfl fun i hi => ?_
    rw [hccv i (Finset.mem_range.1 hi)]
    refine congrArg _ (congrArg (· ^ 2) (Finset.sum_congr rfl fun j hj => ?_))
    rw [hcv j (Finset.mem_range.1 hj), ← hB]
  · refine Finset.sum_congr rfl fun i hi => Finset.sum_congr rfl fun j hj => Finset.sum_congr rfl fun l hl => ?_
    rw [hcv i (Finset.mem_range.1 hi), hcv j (Finset.mem_range.1 hj), hcv l (Finset.mem_range.1 hl)]

/-- C95, linear molecules: the constants `De` and `He` of the rotational energy. The Hamiltonian of the molecule, not
rotating about its axis, is `-De J⁴ + He J⁶` in fourth and sixth order. `wila` holds the derivatives of the inertia
tensor; those that turn the molecular axis vanish by the Eckart conditions. -/
theorem c95_linear (hn : nfreq ≠ 6) (q : Quartic ℝ) (hq : Quartic.new .linear nvib rotcon primat freq wila = some q)
    (hz : ∀ v < nvib, wila v (pairIdx 2 0) = 0) :
    let D : RotorData := ⟨nvib, rotcon, primat, freq, fun v i j => wila v (pairIdx i j), zmat, f3⟩
    let S := Sextic.new .linear nvib nfreq rotcon primat freq wila zmat f3
    Axial D.H4 → Axial D.H6 → ∀ x y : ℝ, eval ![x, y, 0] D.H4 = -q.de * (x ^ 2 + y ^ 2) ^ 2 ∧
      eval ![x, y, 0] D.H6 = S.he * (x ^ 2 + y ^ 2) ^ 3 := by
  intro D S h4 h6 x y
  have hτ : D.τ = makeTau nvib freq primat wila := rotorData_tau nvib rotcon primat freq wila zmat f3
  have hde : -q.de = D.τ 0 0 0 0 / 4 := by
    have : q.de = -(makeTau nvib freq primat wila 0 0 0 0 / Arith.lit 4.0) := by
      rw [Quartic.new] at hq
      simp only [quarticRep, Option.bind_eq_bind, Option.bind_some] at hq
      exact (congrArg Quartic.de (Option.some.inj hq)).symm
    rw [this, hτ, lit_real]
    norm_num
  refine ⟨h4.of_first (k := 2) (fun r => ?_) x y, h6.of_first (k := 3) (fun r => ?_) x y⟩
  · rw [hde]
    exact H4_axis D 0 r
  · refine (sccDiag_axis nvib rotcon freq wila zmat f3 rotcon primat true 0 (by norm_num) rfl (Or.inl rfl) hz r).trans ?_
    have : S.he = sexticScc .linear nvib nfreq rotcon primat freq wila zmat f3 0 0 0 := rfl
    rw [this]
    simp only [sexticScc, scc, if_neg hn]
    rfl

/-- C95, diatomic molecules: the same. The moments and rotational constants are in ascending order, the first belongs to
the molecular axis, which is axis 2 of the derivatives. -/
theorem c95_diatomic (q : Quartic ℝ) (hq : Quartic.new .diatomic nvib rotcon primat freq wila = some q)
    (hB : rotcon 1 = rotcon 2) (hz : ∀ v < nvib, wila v (pairIdx 2 1) = 0) :
    let D : RotorData := ⟨nvib, fun i => rotcon (2 - i), fun i => primat (2 - i), freq,
      fun v i j => wila v (pairIdx i j), zmat, f3⟩
    let S := Sextic.new .diatomic nvib 6 rotcon primat freq wila zmat f3
    Axial D.H4 → Axial D.H6 → ∀ x y : ℝ, eval ![x, y, 0] D.H4 = -q.de * (x ^ 2 + y ^ 2) ^ 2 ∧
      eval ![x, y, 0] D.H6 = S.he * (x ^ 2 + y ^ 2) ^ 3 := by
  intro D S h4 h6 x y
  have hde : -q.de = D.τ 1 1 1 1 / 4 := by
    have : q.de = -(makeTau nvib freq primat wila 1 1 1 1 / Arith.lit 4.0) := by
      rw [Quartic.new] at hq
      simp only [quarticRep, Option.bind_eq_bind, Option.bind_some] at hq
      exact (congrArg Quartic.de (Option.some.inj hq)).symm
    rw [this, c44_value, lit_real]
    norm_num
    rfl
  refine ⟨h4.of_second (k := 2) (fun r => ?_) x y, h6.of_second (k := 3) (fun r => ?_) x y⟩
  · rw [hde]
    exact H4_axis D 1 r
  · refine (sccDiag_axis nvib rotcon freq wila zmat f3 (fun i => rotcon (2 - i)) (fun i => primat (2 - i)) false 1
      (by norm_num) rfl (Or.inr hB.symm) hz r).trans ?_
    rfl

end

/-- One stretching mode of a linear molecule on axis 2: it changes the moments of the axes 0 and 1 alike. -/
def stretchWila : Mat ℝ := fun _ c => if c = 0 ∨ c = 2 then 1 else 0

/-- Constants of a linear molecule: nothing on axis 2. -/
def stretchB : Vec ℝ := fun i => if i < 2 then 1 else 0

theorem stretch_axial : Axial (RotorData.H4 ⟨1, stretchB, stretchB, fun _ => 1, fun v i j => stretchWila v (pairIdx i j),
      fun _ _ _ => 0, fun _ _ _ => 6⟩) ∧
    Axial (RotorData.H6 ⟨1, stretchB, stretchB, fun _ => 1, fun v i j => stretchWila v (pairIdx i j),
      fun _ _ _ => 0, fun _ _ _ => 6⟩) := by
  constructor
  · intro c s h x y
    have e : (c * x - s * y) ^ 2 + (s * x + c * y) ^ 2 = x ^ 2 + y ^ 2 := by linear_combination (x ^ 2 + y ^ 2) * h
    have key : ∀ u w : ℝ, eval ![u, w, 0] (RotorData.H4 ⟨1, stretchB, stretchB, fun _ => 1,
        fun v i j => stretchWila v (pairIdx i j), fun _ _ _ => 0, fun _ _ _ => 6⟩) =
        -(38333.84078 / 8) * (u ^ 2 + w ^ 2) ^ 2 := by
      intro u w
      simp only [RotorData.H4, RotorData.τ, sum3, map_add, map_mul, eval_C, eval_X]
      simp [pairIdx, ioff, stretchWila, stretchB]
      ring
    rw [key, key, e]
  · intro c s h x y
    have e : (c * x - s * y) ^ 2 + (s * x + c * y) ^ 2 = x ^ 2 + y ^ 2 := by linear_combination (x ^ 2 + y ^ 2) * h
    obtain ⟨k, hk⟩ : ∃ k : ℝ, k = (0.1722212503791076 ^ 2 * 1) ^ (3 / 2 : ℝ) := ⟨_, rfl⟩
    have key : ∀ u w : ℝ, eval ![u, w, 0] (RotorData.H6 ⟨1, stretchB, stretchB, fun _ => 1,
        fun v i j => stretchWila v (pairIdx i j), fun _ _ _ => 0, fun _ _ _ => 6⟩) =
        (3 / 16 * (38333.84078 / 2) ^ 2 + (1 / (2 * k)) ^ 3) * (u ^ 2 + w ^ 2) ^ 3 := by
      intro u w
      simp only [RotorData.H6, RotorData.torque, RotorData.coriolis, RotorData.shift, RotorData.τ, sum3, map_add, map_sub,
        map_mul, map_pow, eval_C, eval_X, map_sum, Finset.sum_range_one, ← hk]
      simp [pairIdx, ioff, stretchWila, stretchB]
      ring
    rw [key, key, e]

example : ∃ q, Quartic.new .linear 1 stretchB stretchB (fun _ => 1) stretchWila = some q ∧ q.de ≠ 0 ∧ ∀ x y : ℝ,
    eval ![x, y, 0] (RotorData.H4 ⟨1, stretchB, stretchB, fun _ => 1, fun v i j => stretchWila v (pairIdx i j),
      fun _ _ _ => 0, fun _ _ _ => 6⟩) = -q.de * (x ^ 2 + y ^ 2) ^ 2 ∧
    eval ![x, y, 0] (RotorData.H6 ⟨1, stretchB, stretchB, fun _ => 1, fun v i j => stretchWila v (pairIdx i j),
      fun _ _ _ => 0, fun _ _ _ => 6⟩) =
      (Sextic.new .linear 1 9 stretchB stretchB (fun _ => 1) stretchWila (fun _ _ _ => 0) fun _ _ _ => 6).he *
        (x ^ 2 + y ^ 2) ^ 3 := by
  obtain ⟨q, hq⟩ := Option.isSome_iff_exists.1 ((quartic_isSome .linear 1 stretchB stretchB (fun _ => 1) stretchWila).2
    (by decide))
  have key := c95_linear 1 9 stretchB stretchB (fun _ => 1) stretchWila (fun _ _ _ => 0) (fun _ _ _ => 6) (by norm_num) q hq
    (by norm_num [stretchWila, pairIdx, ioff]) stretch_axial.1 stretch_axial.2
  refine ⟨q, hq, ?_, key⟩
  intro h0
  have := (key 1 0).1
  rw [h0] at this
  simp only [RotorData.H4, RotorData.τ, sum3, map_add, map_mul, eval_C, eval_X] at this
  norm_num [pairIdx, ioff, stretchWila, stretchB] at this

example : ∃ q, Quartic.new .diatomic 1 (fun i => stretchB (2 - i)) (fun i => stretchB (2 - i)) (fun _ => 1) stretchWila =
      some q ∧ ∀ x y : ℝ,
    eval ![x, y, 0] (RotorData.H4 ⟨1, fun i => stretchB (2 - (2 - i)), fun i => stretchB (2 - (2 - i)), fun _ => 1,
      fun v i j => stretchWila v (pairIdx i j), fun _ _ _ => 0, fun _ _ _ => 6⟩) = -q.de * (x ^ 2 + y ^ 2) ^ 2 := by
  obtain ⟨q, hq⟩ := Option.isSome_iff_exists.1 ((quartic_isSome .diatomic 1 (fun i => stretchB (2 - i))
    (fun i => stretchB (2 - i)) (fun _ => 1) stretchWila).2 (by decide))
  have e : (fun i => stretchB (2 - (2 - i))) = fun i => if i = 0 ∨ i = 1 then 1 else 0 := by
    funext i
    rcases i with _ | _ | _ | i <;> simp [stretchB]
  have e' : stretchB = fun i => if i = 0 ∨ i = 1 then 1 else 0 := by
    funext i
    rcases i with _ | _ | _ | i <;> simp [stretchB]
  refine ⟨q, hq, fun x y => (c95_diatomic 1 (fun i => stretchB (2 - i)) (fun i => stretchB (2 - i)) (fun _ => 1)
    stretchWila (fun _ _ _ => 0) (fun _ _ _ => 6) q hq (by norm_num [stretchB])
    (by norm_num [stretchWila, pairIdx, ioff]) ?_ ?_ x y).1⟩
  · have := stretch_axial.1
    rw [e'] at this
    rw [e]
    exact this
  · have := stretch_axial.2
    rw [e'] at this
    rw [e]
    exact this

end Verif
