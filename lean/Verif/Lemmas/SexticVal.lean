import Verif.Lemmas.SexticRaw

/-! The values of the tensors of /repo/spectro/src/sextic.rs entry by entry. -/

namespace Verif

open MvPolynomial

theorem sumTriples_real (n : Nat) (f : Nat → Nat → Nat → ℝ) :
    sumTriples n f = ∑ i ∈ Finset.range n, ∑ j ∈ Finset.range n, ∑ k ∈ Finset.range n, f i j k := by
  have key : ∀ (n : Nat) (g : Nat → List (Nat × Nat × Nat)) (F : Nat × Nat × Nat → ℝ),
      (((List.range n).flatMap g).map F).sum = ∑ i ∈ Finset.range n, ((g i).map F).sum := by
    intro n g F
    induction n with
    | zero => simp
    | succ n ih => rw [List.range_succ, List.flatMap_append, List.map_append, List.sum_append, ih,
        Finset.sum_range_succ]; simp
  rw [sumTriples, sumL_real, key]
  refine Finset.sum_congr rfl fun i _ => ?_
  rw [key]
  refine Finset.sum_congr rfl fun j _ => ?_
  have := key n (fun k => [(i, j, k)]) fun p => f p.1 p.2.1 p.2.2
  rw [List.map_eq_flatMap (f := fun k => (i, j, k)), this]
  simp

/-- One assignment to `cc`. -/
def ccStep (cc : T4 ℝ) (w : (Nat × Nat × Nat × Nat) × ℝ) : T4 ℝ :=
  T4.set cc w.1.1 w.1.2.1 w.1.2.2.1 w.1.2.2.2 w.2

theorem ccStep_congr (L : List ((Nat × Nat × Nat × Nat) × ℝ)) (i x y z : Nat) (s t : T4 ℝ) (h : s i x y z = t i x y z) :
    L.foldl ccStep s i x y z = L.foldl ccStep t i x y z := by
  induction L generalizing s t with
  | nil => exact h
  | cons w L ih =>
    refine ih _ _ ?_
    simp only [ccStep, T4.set]
    split
    · rfl
    · exact h

/-- Writes for other modes do not matter. -/
theorem cc_mode (n : Nat) {i : Nat} (hi : i < n)
    (W : Nat → List ((Nat × Nat × Nat × Nat) × ℝ)) (hW : ∀ j, ∀ w ∈ W j, w.1.1 = j) (x y z : Nat) :
    ((List.range n).flatMap W).foldl ccStep (fun _ _ _ _ => Arith.lit 0) i x y z =
    (W i).foldl ccStep (fun _ _ _ _ => Arith.lit 0) i x y z := by
  have key : ∀ n, ((List.range n).flatMap W).foldl ccStep (fun _ _ _ _ => Arith.lit 0) i x y z =
      if i < n then (W i).foldl ccStep (fun _ _ _ _ => Arith.lit 0) i x y z else Arith.lit 0 := by
    intro n
    induction n with
    | zero => simp
    | succ n ih =>
      rw [List.range_succ, List.flatMap_append, List.foldl_append]
      simp only [List.flatMap_cons, List.flatMap_nil, List.append_nil]
      by_cases hin : i = n
      · subst hin
        rw [if_pos (Nat.lt_succ_self _)]
        refine ccStep_congr _ _ _ _ _ _ _ ?_
        rw [ih, if_neg (lt_irrefl _)]
      · rw [foldl_obs_const (fun t : T4 ℝ => t i x y z) ccStep, ih]
        · have : i < n + 1 ↔ i < n := by omega
          simp only [this]
        · intro t w hw
          have := hW n w hw
          simp only [ccStep, T4.set]
          rw [if_neg (by rw [this]; tauto)]
  rw [key, if_pos hi]

/-- The entries of `cc`. -/
theorem cc_values {nvib : Nat} (freq : Vec ℝ) (c : Mat ℝ) (zmat : T3 ℝ) (rotcon : Vec ℝ) {i : Nat} (hi : i < nvib) :
    let cc := ccTensor nvib 3 freq c zmat rotcon
    (∀ x < 3, cc i x x x = ccDiag nvib freq c zmat rotcon i (x + 1)) ∧
    (∀ x < 3, ∀ y < 3, x ≠ y → cc i y x x = ccPair nvib freq c zmat rotcon i (x + 1) (y + 1) ∧
      cc i x x y = ccPair nvib freq c zmat rotcon i (x + 1) (y + 1)) ∧
    cc i 2 1 0 = ccTriple nvib freq c zmat rotcon i 1 2 3 := by
  intro cc
  have h : ∀ x y z, cc i x y z = ((List.range' 1 3).flatMap fun x =>
    [((i, x - 1, x - 1, x - 1), ccDiag nvib freq c zmat rotcon i x)] ++
    (List.range' 1 3).flatMap fun y =>
      if x = y then [] else
        let val := ccPair nvib freq c zmat rotcon i x y
        [((i, y - 1, x - 1, x - 1), val), ((i, x - 1, y - 1, x - 1), val), ((i, x - 1, x - 1, y - 1), val)] ++
        (List.range' 1 3).flatMap fun z =>
          if x = z ∨ y = z then [] else
            [((i, z - 1, y - 1, x - 1), ccTriple nvib freq c zmat rotcon i x y z)]).foldl ccStep
      (fun _ _ _ _ => Arith.lit 0) i x y z := by
    intro x y z
    refine cc_mode nvib hi (fun i => (List.range' 1 3).flatMap fun x =>
      [((i, x - 1, x - 1, x - 1), ccDiag nvib freq c zmat rotcon i x)] ++
      (List.range' 1 3).flatMap fun y =>
        if x = y then [] else
          let val := ccPair nvib freq c zmat rotcon i x y
          [((i, y - 1, x - 1, x - 1), val), ((i, x - 1, y - 1, x - 1), val), ((i, x - 1, x - 1, y - 1), val)] ++
          (List.range' 1 3).flatMap fun z =>
            if x = z ∨ y = z then [] else
              [((i, z - 1, y - 1, x - 1), ccTriple nvib freq c zmat rotcon i x y z)]) ?_ x y z
    intro j w hw
    simp [List.range'] at hw
    aesop
  generalize ccDiag nvib freq c zmat rotcon i = D at *
  generalize ccPair nvib freq c zmat rotcon i = P at *
  generalize ccTriple nvib freq c zmat rotcon i = T at *
  refine ⟨?_, ?_, ?_⟩
  · intro x hx
    rw [h]
    interval_cases x <;> simp [List.range', ccStep, T4.set]
  · intro x hx y hy hxy
    rw [h, h]
    interval_cases x <;> interval_cases y <;> first | exact absurd rfl hxy | simp [List.range', ccStep, T4.set]
  · rw [h]
    simp [List.range', ccStep, T4.set]

/-- The entries of `c`. -/
theorem c_values {nvib : Nat} (freq primat : Vec ℝ) (wila : Mat ℝ) {v : Nat} (hv : v < nvib) {x y : Nat} (hx : x < 3)
    (hy : y ≤ x) : cMat 3 nvib freq primat wila v (ioff (x + 1) + y) =
      wila v (ioff (x + 1) + y) / (2 * primat x * primat y * (0.1722212503791076 ^ 2 * freq v) ^ (3 / 2 : ℝ)) := by
  unfold cMat
  refine foldl_write_eq (fun t : Mat ℝ => t v (ioff (x + 1) + y))
    (fun p : Nat × Nat × Nat => v = p.1 ∧ ioff (x + 1) + y = ioff (p.2.1 + 1) + p.2.2)
    (fun p => wila p.1 (ioff (p.2.1 + 1) + p.2.2) / (Arith.lit 2.0 * primat p.2.1 * primat p.2.2 *
      Arith.powf15 (SQLAM * SQLAM * freq p.1))) _ (fun t p => rfl) _ _ _ ?_ ?_
  · rintro ⟨i, a, b⟩ hp ⟨rfl, hab⟩
    simp only [List.mem_flatMap, List.mem_range, List.mem_map, Prod.mk.injEq] at hp
    obtain ⟨i', hi', a', ha', b', hb', rfl, rfl, rfl⟩ := hp
    have : a' = x ∧ b' = y := by
      interval_cases x <;> interval_cases a' <;> simp [ioff] at hab <;> omega
    obtain ⟨rfl, rfl⟩ := this
    simp only [lit_real, powf15_real, SQLAM]
    push_cast
    rw [pow_two]
    norm_num
  · exact ⟨(v, x, y), by simp only [List.mem_flatMap, List.mem_range, List.mem_map, Prod.mk.injEq]; exact
      ⟨v, hv, x, hx, y, by omega, rfl, rfl, rfl⟩, rfl, rfl⟩

end Verif
