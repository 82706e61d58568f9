import Verif.Props.Reduce

/-! The distortion constants of linear molecules: the entries of the tensors with two axes. -/

namespace Verif

open MvPolynomial

/-- The entries of `c` with two axes. -/
theorem c_values2 {nvib : Nat} (freq primat : Vec ℝ) (wila : Mat ℝ) {v : Nat} (hv : v < nvib) {x y : Nat} (hx : x < 2)
    (hy : y ≤ x) : cMat 2 nvib freq primat wila v (ioff (x + 1) + y) =
      wila v (ioff (x + 1) + y) / (2 * primat x * primat y * (0.1722212503791076 ^ 2 * freq v) ^ (3 / 2 : ℝ)) := by
  unfold cMat
  refine foldl_write_eq (fun t : Mat ℝ => t v (ioff (x + 1) + y))
    (fun p : Nat × Nat × Nat => v = p.1 ∧ ioff (x + 1) + y = ioff (p.2.1 + 1) + p.2.2)
    (fun p => wila p.1 (ioff (p.2.1 + 1) + p.2.2) / (Arith.lit 2.0 * primat p.2.1 * primat p.2.2 *
      Arith.powf15 (SQLAM * SQLAM * freq p.1))) _ (fun t p => rfl) _ _ _ ?_ ?_
  · rintro ⟨i, a, b⟩ hp ⟨rfl, hab⟩
    simp only [List.mem_flatMap, List.mem_range, List.mem_map, Prod.mk.injEq] at hp
    obtain ⟨i', hi', a', ha', b', hb', rfl, rfl, rfl⟩ := hp
    have : a' = x ∧ b' = y := by
      interval_cases x <;> interval_cases a' <;> simp [ioff] at hab <;> omega
    obtain ⟨rfl, rfl⟩ := this
    simp only [lit_real, powf15_real, SQLAM]
    push_cast
    rw [pow_two]
    norm_num
  · exact ⟨(v, x, y), by simp only [List.mem_flatMap, List.mem_range, List.mem_map, Prod.mk.injEq]; exact
      ⟨v, hv, x, hx, y, by omega, rfl, rfl, rfl⟩, rfl, rfl⟩

/-- The entries of `cc` with two axes. -/
theorem cc_values2 {nvib : Nat} (freq : Vec ℝ) (c : Mat ℝ) (zmat : T3 ℝ) (rotcon : Vec ℝ) {i : Nat} (hi : i < nvib)
    {x : Nat} (hx : x < 2) :
    ccTensor nvib 2 freq c zmat rotcon i x x x = ccDiag nvib freq c zmat rotcon i (x + 1) := by
  have h := cc_mode nvib hi (fun i => (List.range' 1 2).flatMap fun x =>
    [((i, x - 1, x - 1, x - 1), ccDiag nvib freq c zmat rotcon i x)] ++
    (List.range' 1 2).flatMap fun y =>
      if x = y then [] else
        let val := ccPair nvib freq c zmat rotcon i x y
        [((i, y - 1, x - 1, x - 1), val), ((i, x - 1, y - 1, x - 1), val), ((i, x - 1, x - 1, y - 1), val)] ++
        (List.range' 1 2).flatMap fun z =>
          if x = z ∨ y = z then [] else
            [((i, z - 1, y - 1, x - 1), ccTriple nvib freq c zmat rotcon i x y z)]) (by
      intro j w hw
      simp [List.range'] at hw
      aesop) x x x
  refine Eq.trans h ?_
  generalize ccDiag nvib freq c zmat rotcon i = D
  generalize ccPair nvib freq c zmat rotcon i = P
  generalize ccTriple nvib freq c zmat rotcon i = T
  interval_cases x <;> simp [List.range', ccStep, T4.set]

/-- The sextic part of the Hamiltonian on the first or the second axis. -/
theorem H6_axis (D : RotorData) (k : Fin 3) (r : ℝ) : eval (Pi.single k r) D.H6 = r ^ 6 * (
    3 / 16 * (∑ w : Fin 3, D.τ w k k k ^ 2 / D.B w) -
    2 * (∑ i ∈ Finset.range D.nvib, D.ω i * (∑ j ∈ Finset.range D.nvib,
      D.ω j ^ (3 / 2 : ℝ) * (1 / D.ω j ^ 2 + 2 / D.ω i ^ 2) / √(D.ω i) *
        (D.a j k k / (2 * D.I k * D.I k * (0.1722212503791076 ^ 2 * D.ω j) ^ (3 / 2 : ℝ)) * (D.ζ j i k * D.B k))) ^ 2) +
    1 / 6 * ∑ i ∈ Finset.range D.nvib, ∑ j ∈ Finset.range D.nvib, ∑ l ∈ Finset.range D.nvib, D.k i j l *
      (D.a i k k / (2 * D.I k * D.I k * (0.1722212503791076 ^ 2 * D.ω i) ^ (3 / 2 : ℝ)) *
       (D.a j k k / (2 * D.I k * D.I k * (0.1722212503791076 ^ 2 * D.ω j) ^ (3 / 2 : ℝ))) *
       (D.a l k k / (2 * D.I k * D.I k * (0.1722212503791076 ^ 2 * D.ω l) ^ (3 / 2 : ℝ))))) := by
  have hX : ∀ i : Fin 3, (Pi.single k r : Fin 3 → ℝ) i = if i = k then r else 0 := fun i => Pi.single_apply k r i
  have hs : ∀ v, eval (Pi.single k r) (D.shift v) =
      r ^ 2 * (D.a v k k / (2 * D.I k * D.I k * (0.1722212503791076 ^ 2 * D.ω v) ^ (3 / 2 : ℝ))) := by
    intro v
    simp only [RotorData.shift, map_sum, map_mul, eval_C, eval_X, hX, ite_mul, mul_ite, mul_zero, zero_mul,
      Finset.sum_ite_eq', Finset.mem_univ, if_true, Finset.sum_ite_irrel, Finset.sum_const_zero]
    ring
  have hc : ∀ i, eval (Pi.single k r) (D.coriolis i) = r ^ 3 * ∑ j ∈ Finset.range D.nvib,
      D.ω j ^ (3 / 2 : ℝ) * (1 / D.ω j ^ 2 + 2 / D.ω i ^ 2) / √(D.ω i) *
        (D.a j k k / (2 * D.I k * D.I k * (0.1722212503791076 ^ 2 * D.ω j) ^ (3 / 2 : ℝ)) * (D.ζ j i k * D.B k)) := by
    intro i
    simp only [RotorData.coriolis, map_sum, map_mul, eval_C, eval_X, hs, hX, mul_ite, mul_zero, Finset.sum_ite_eq',
      Finset.mem_univ, if_true, Finset.mul_sum]
    exact Finset.sum_congr rfl fun j _ => by ring
  have ht : ∀ w, eval (Pi.single k r) (D.torque w) = r ^ 3 * D.τ w k k k := by
    intro w
    simp only [RotorData.torque, map_sum, map_mul, eval_C, eval_X, hX, ite_mul, mul_ite, mul_zero, zero_mul,
      Finset.sum_ite_eq', Finset.mem_univ, if_true, Finset.sum_ite_irrel, Finset.sum_const_zero]
    ring
  simp only [RotorData.H6, map_add, map_sub, map_mul, map_sum, map_pow, eval_C, hs, hc, ht]
  have e1 : ∑ w : Fin 3, 1 / D.B w * (r ^ 3 * D.τ w k k k) ^ 2 = r ^ 6 * ∑ w : Fin 3, D.τ w k k k ^ 2 / D.B w := by
    rw [Finset.mul_sum]
    exact Finset.sum_congr rfl fun w _ => by ring
  have e2 : ∀ g : ℕ → ℝ, ∑ i ∈ Finset.range D.nvib, D.ω i * (r ^ 3 * g i) ^ 2 =
      r ^ 6 * ∑ i ∈ Finset.range D.nvib, D.ω i * g i ^ 2 := by
    intro g
    rw [Finset.mul_sum]
    exact Finset.sum_congr rfl fun w _ => by ring
  have e3 : ∀ g : ℕ → ℝ, ∑ i ∈ Finset.range D.nvib, ∑ j ∈ Finset.range D.nvib, ∑ l ∈ Finset.range D.nvib,
      D.k i j l * (r ^ 2 * g i * (r ^ 2 * g j) * (r ^ 2 * g l)) = r ^ 6 * ∑ i ∈ Finset.range D.nvib,
      ∑ j ∈ Finset.range D.nvib, ∑ l ∈ Finset.range D.nvib, D.k i j l * (g i * g j * g l) := by
    intro g
    simp only [Finset.mul_sum]
    exact Finset.sum_congr rfl fun i _ => Finset.sum_congr rfl fun j _ => Finset.sum_congr rfl fun l _ => by ring
  rw [e1, e2, e3]
  ring

theorem H4_axis (D : RotorData) (k : Fin 3) (r : ℝ) : eval (Pi.single k r) D.H4 = r ^ 4 * (D.τ k k k k / 4) := by
  have hX : ∀ i : Fin 3, (Pi.single k r : Fin 3 → ℝ) i = if i = k then r else 0 := fun i => Pi.single_apply k r i
  simp only [RotorData.H4, map_sum, map_mul, eval_C, eval_X, hX, ite_mul, mul_ite, mul_zero, zero_mul,
    Finset.sum_ite_eq', Finset.mem_univ, if_true, Finset.sum_ite_irrel, Finset.sum_const_zero]
  ring

end Verif
