import Verif.Props.RoundingFields
import Verif.Props.Energy

/-!
# C116: rounding errors of the energies of vibrational states
-/

namespace Verif

open Finset

variable {u : ℝ} {rnd : ℝ → ℝ}

theorem leqPairs_length (n : Nat) : (leqPairs n).length ≤ n * n := by
  unfold leqPairs
  rw [List.length_flatMap]
  simp only [List.length_map, List.length_range]
  have : ∀ m ≤ n, ((List.range m).map fun a => a + 1).sum ≤ m * n := by
    intro m hm
    induction m with
    | zero => simp
    | succ m ih =>
      rw [List.range_succ, List.map_append, List.sum_append]
      have := ih (by omega)
      simp only [List.map_cons, List.map_nil, List.sum_cons, List.sum_nil]
      nlinarith
  exact this n le_rfl

theorem pairs_length (n m : Nat) : (pairs n m).length = n * m := by
  unfold pairs
  rw [List.length_flatMap]
  simp

section
variable (c : RoundCtx u 1 rnd)
include c

theorem acc_sumL {β : Type} {e : Nat} (he : 1 ≤ e) (l : List β) (f T : β → ℝ) (g : β → Fl rnd)
    (h : ∀ b ∈ l, Acc u 1 e 0 (f b) (g b) (T b)) {e' : Nat} (hl : e + l.length ≤ e') : Acc u 1 e' 0 (sumL l f) (sumL l g) (sumL l T) := by
  refine acc_mono c ?_ hl le_rfl le_rfl
  clear hl
  induction l using List.reverseRecOn with
  | nil =>
    refine acc_mono c (acc_lit c 0 0 (by simp)) (by simpa using he) le_rfl (le_of_eq ?_)
    simp [sumL, lit_real]
  | append_singleton l b ih =>
    unfold sumL
    rw [List.foldl_append, List.foldl_append, List.foldl_append]
    refine acc_add c (ih fun b hb => h b (by simp [hb])) (h b (by simp)) ?_ ?_ le_rfl le_rfl
    · simp
    · simp only [List.length_append, List.length_cons]; omega

theorem acc_quanta (q : Nat) (r : ℚ) (h0 : 0 ≤ r) : Acc u 1 2 0 (ofNat q + Arith.lit r : ℝ) (ofNat q + Arith.lit r : Fl rnd)
    (ofNat q + Arith.lit r : ℝ) := by
  have e : (ofNat q + Arith.lit r : ℝ) = (q : ℝ) + (r : ℝ) := by rw [ofNat_real, lit_real]
  refine acc_mono c (acc_add c (e := 2) (d := 0) (acc_lit c (q : ℚ) (q : ℝ) (by simp)) (acc_lit c r (r : ℝ) ?_) (by omega) (by omega)
    le_rfl le_rfl) le_rfl le_rfl (le_of_eq e.symm)
  rw [abs_of_nonneg (by exact_mod_cast h0)]

theorem acc_whole (q : Nat) : Acc u 1 1 0 (ofNat q : ℝ) (ofNat q : Fl rnd) (ofNat q : ℝ) :=
  acc_mono c (acc_lit c (q : ℚ) (q : ℝ) (by simp)) le_rfl le_rfl (le_of_eq (ofNat_real q).symm)

/-- The energy of one state in both arithmetics. -/
theorem acc_stateEnergy (i1mode : List Nat) (i2mode : List (Nat × Nat)) (w : Vec (Fl rnd)) (x : Mat (Fl rnd)) (g : Option (Mat (Fl rnd)))
    (e0 : Fl rnd) (v1 : List Nat) (v2 : List (Nat × Nat)) (h1 : i1mode.length ≤ v1.length) (h2 : i2mode.length ≤ v2.length)
    (h3 : i2mode = [] ∨ g.isSome) :
    ∃ a r T, stateEnergy i1mode i2mode (fun i => (w i).val) (fun i j => (x i j).val) (g.map fun G i j => (G i j).val) e0.val v1 v2 = some a ∧
      stateEnergy i1mode i2mode w x g e0 v1 v2 = some r ∧
      stateEnergy i1mode i2mode (fun i => |(w i).val|) (fun i j => |(x i j).val|) (g.map fun G i j => |(G i j).val|) |e0.val| v1 v2 = some T ∧
      Acc u 1 ((i1mode.length + i2mode.length) * (i1mode.length + i2mode.length) + 13) 0 a r T := by
  have hl : i1mode.length ≤ v1.length ∧ i2mode.length ≤ v2.length := ⟨h1, h2⟩
  set K := i1mode.length + i2mode.length with hK
  have k1 : i1mode.length ≤ K * K := by nlinarith
  have k2 : i2mode.length ≤ K * K := by nlinarith
  have k3 : i1mode.length * i1mode.length ≤ K * K := Nat.mul_le_mul (by omega) (by omega)
  have k4 : i2mode.length * i2mode.length ≤ K * K := Nat.mul_le_mul (by omega) (by omega)
  have k5 : i1mode.length * i2mode.length ≤ K * K := Nat.mul_le_mul (by omega) (by omega)
  have l1 := leqPairs_length i1mode.length
  have l2 := leqPairs_length i2mode.length
  have l3 := pairs_length i1mode.length i2mode.length
  have hh := fun q => acc_quanta c q 0.5 (by norm_num)
  have ho := fun q => acc_quanta c q 1.0 (by norm_num)
  have val1 := acc_sumL c (e := 6) (by omega) (List.range i1mode.length)
    (fun ii => (w (i1mode.getD ii 0)).val * (ofNat (v1.getD ii 0) + Arith.lit 0.5)) _ _
    (fun ii _ => acc_mul c (e := 6) (d := 0) (acc_val c (w (i1mode.getD ii 0))) (hh (v1.getD ii 0)) (by omega) le_rfl)
    (e' := K * K + 6) (by rw [List.length_range]; omega)
  have val2 := acc_sumL c (e := 6) (by omega) (List.range i2mode.length)
    (fun ii => (w (i2mode.getD ii (0, 0)).1).val * (ofNat (v2.getD ii (0, 0)).1 + Arith.lit 1.0)) _ _
    (fun ii _ => acc_mul c (e := 6) (d := 0) (acc_val c (w (i2mode.getD ii (0, 0)).1)) (ho (v2.getD ii (0, 0)).1) (by omega) le_rfl)
    (e' := K * K + 6) (by rw [List.length_range]; omega)
  have val3 := acc_sumL c (e := 6) (by omega) (leqPairs i1mode.length)
    (fun p => (x (i1mode.getD p.1 0) (i1mode.getD p.2 0)).val * (ofNat (v1.getD p.1 0) + Arith.lit 0.5) *
      (ofNat (v1.getD p.2 0) + Arith.lit 0.5)) _ _
    (fun p _ => acc_mul c (e := 6) (d := 0) (acc_mul c (e := 3) (d := 0) (acc_val c (x (i1mode.getD p.1 0) (i1mode.getD p.2 0)))
      (hh (v1.getD p.1 0)) (by omega) le_rfl) (hh (v1.getD p.2 0)) (by omega) le_rfl) (e' := K * K + 6) (by omega)
  have val4 := acc_sumL c (e := 6) (by omega) (pairs i1mode.length i2mode.length)
    (fun p => (x (i1mode.getD p.1 0) (i2mode.getD p.2 (0, 0)).1).val *
        ((ofNat (v1.getD p.1 0) + Arith.lit 0.5) * (ofNat (v2.getD p.2 (0, 0)).1 + Arith.lit 1.0))) _ _
    (fun p _ => acc_mul c (e := 6) (d := 0) (acc_val c (x (i1mode.getD p.1 0) (i2mode.getD p.2 (0, 0)).1))
      (acc_mul c (e := 5) (d := 0) (hh (v1.getD p.1 0)) (ho (v2.getD p.2 (0, 0)).1) (by omega) le_rfl) (by omega) le_rfl)
    (e' := K * K + 6) (by omega)
  have val5 := acc_sumL c (e := 6) (by omega) (leqPairs i2mode.length)
    (fun p => (x (i2mode.getD p.1 (0, 0)).1 (i2mode.getD p.2 (0, 0)).1).val *
        ((ofNat (v2.getD p.1 (0, 0)).1 + Arith.lit 1.0) * (ofNat (v2.getD p.2 (0, 0)).1 + Arith.lit 1.0))) _ _
    (fun p _ => acc_mul c (e := 6) (d := 0) (acc_val c (x (i2mode.getD p.1 (0, 0)).1 (i2mode.getD p.2 (0, 0)).1))
      (acc_mul c (e := 5) (d := 0) (ho (v2.getD p.1 (0, 0)).1) (ho (v2.getD p.2 (0, 0)).1) (by omega) le_rfl) (by omega) le_rfl)
    (e' := K * K + 6) (by omega)
  have val6 : ∃ a r T, engVal6 i2mode (g.map fun G i j => (G i j).val) v2 = some a ∧ engVal6 i2mode g v2 = some r ∧
      engVal6 i2mode (g.map fun G i j => |(G i j).val|) v2 = some T ∧ Acc u 1 (K * K + 6) 0 a r T := by
    unfold engVal6
    by_cases h0 : i2mode.length = 0
    · simp only [h0, if_true]
      exact ⟨_, _, _, rfl, rfl, rfl, acc_mono c (acc_lit c 0.0 0 (by norm_num)) (by omega) le_rfl (le_of_eq (by rw [lit_real]; norm_num))⟩
    · rw [if_neg h0, if_neg h0, if_neg h0]
      obtain ⟨G, rfl⟩ : ∃ G, g = some G := Option.isSome_iff_exists.1 (h3.resolve_left fun h => h0 (by rw [h]; rfl))
      refine ⟨_, _, _, rfl, rfl, rfl, ?_⟩
      exact acc_sumL c (e := 6) (by omega) (leqPairs i2mode.length) _ _ _
        (fun p _ => acc_mul c (e := 6) (d := 0) (acc_mul c (e := 3) (d := 0) (acc_val c (G (i2mode.getD p.1 (0, 0)).1
          (i2mode.getD p.2 (0, 0)).1)) (acc_whole c (v2.getD p.1 (0, 0)).2) (by omega) le_rfl) (acc_whole c (v2.getD p.2 (0, 0)).2)
          (by omega) le_rfl) (by omega)
  obtain ⟨a6, r6, T6, q1, q2, q3, q4⟩ := val6
  unfold stateEnergy
  dsimp only
  rw [if_pos hl, if_pos hl, if_pos hl, q1, q2, q3]
  refine ⟨_, _, _, rfl, rfl, rfl, ?_⟩
  exact acc_add c (acc_add c (e := K * K + 11) (d := 0) (acc_add c (e := K * K + 10) (d := 0) (acc_add c (e := K * K + 9) (d := 0)
    (acc_add c (e := K * K + 8) (d := 0) (acc_add c (e := K * K + 7) (d := 0) val1 val2 (by omega) (by omega) le_rfl le_rfl)
    val3 (by omega) (by omega) le_rfl le_rfl) val4 (by omega) (by omega) le_rfl le_rfl) val5 (by omega) (by omega) le_rfl le_rfl)
    q4 (by omega) (by omega) le_rfl le_rfl) (acc_val c e0) (by omega) (by omega) le_rfl le_rfl

end

/-- C116: before resonances are treated, the energy of every state computed with rounded arithmetic differs from that of the anharmonic
expansion for the same frequencies and constants by at most `2 (K² + 13) u` times the sum of the sizes of the terms, where `K` is the
number of modes, degenerate pairs counted once. -/
theorem c116_energies (hr : Rounds u rnd) (modes : List Mode) (w : Vec (Fl rnd)) (x : Mat (Fl rnd)) (g : Option (Mat (Fl rnd))) (e0 : Fl rnd)
    (states : List State) (init eng : List (Fl rnd)) (hi : init.length = states.length)
    (hu : ((((nonDeg modes).length + (degPairs modes).length) ^ 2 : ℕ) + 13 : ℝ) * u ≤ 1 / 2)
    (hx : ∀ i ∈ modeNumbers modes, ∀ j ∈ modeNumbers modes, x i j = x j i)
    (hg : ∀ i ∈ modeNumbers modes, ∀ j ∈ modeNumbers modes, ∀ G, g = some G → G i j = G j i)
    (h : part1Eng states.length (Mode.partition modes).1 (Mode.partition modes).2.1 w x g e0 (State.partition states) init = some eng) :
    let E := fun (f : ℝ → ℝ) (s : State) => levelEnergy (nonDeg modes).length (degPairs modes).length
      (oscIdx (nonDeg modes) (degPairs modes)) (fun i => f (w i).val) (fun i j => f (x i j).val)
      ((g.map fun G i j => f (G i j).val).getD fun _ _ => 0) (f e0.val) s.occ
    eng.length = states.length ∧ ∀ (k : Nat) (s : State), states[k]? = some s → ∃ r, eng[k]? = some r ∧
      |r.val - E id s| ≤ 2 * (((((nonDeg modes).length + (degPairs modes).length) ^ 2 : ℕ) + 13) * u) * E abs s := by
  intro E
  have u0 := hr.1
  have c := roundCtx_one hr (by
    have : (0 : ℝ) ≤ (((nonDeg modes).length + (degPairs modes).length) ^ 2 : ℕ) := Nat.cast_nonneg _
    nlinarith)
  rw [part1_eq _ _ _ _ _ _ _ _ hi, part_nonDeg, part_degPairs, mapM_option_some] at h
  have hlen : eng.length = states.length := by
    have := congrArg List.length h
    simpa using this.symm
  refine ⟨hlen, fun k s hk => ?_⟩
  have m1 : ∀ i ∈ nonDeg modes ++ (degPairs modes).map (·.1), i ∈ modeNumbers modes := by
    intro i hi
    rw [List.mem_append, mem_nonDeg, List.mem_map] at hi
    rcases hi with hi | ⟨q, hq, rfl⟩
    · exact List.mem_flatMap.2 ⟨_, hi, by simp⟩
    · rw [mem_degPairs] at hq
      exact List.mem_flatMap.2 ⟨_, hq, by simp⟩
  have hs := congrArg (·[k]?) h
  simp only [List.getElem?_map, hk, Option.map_some] at hs
  obtain ⟨r, hr1, hr2⟩ : ∃ r, eng[k]? = some r ∧ stateEnergy (nonDeg modes) (degPairs modes) w x g e0 s.v1 s.v2 = some r := by
    cases he : eng[k]? with
    | none => rw [he] at hs; simp at hs
    | some r => rw [he] at hs; exact ⟨r, rfl, by simpa using hs⟩
  have hl : (nonDeg modes).length ≤ s.v1.length ∧ (degPairs modes).length ≤ s.v2.length := by
    by_contra hc
    rw [stateEnergy] at hr2
    simp only [hc, if_false] at hr2
    cases hr2
  have hgs : degPairs modes = [] ∨ g.isSome := by
    by_contra hc
    rw [not_or] at hc
    rw [stateEnergy] at hr2
    simp only [hl, and_self, if_true] at hr2
    have : g = none := by simpa using hc.2
    have h0 : (degPairs modes).length ≠ 0 := by simpa using hc.1
    rw [engVal6, if_neg h0, this] at hr2
    cases hr2
  obtain ⟨a, r', T, e1, e2, e3, acc⟩ := acc_stateEnergy c (nonDeg modes) (degPairs modes) w x g e0 s.v1 s.v2 hl.1 hl.2 hgs
  obtain rfl : r' = r := Option.some.inj (e2.symm.trans hr2)
  have real : ∀ f : ℝ → ℝ, stateEnergy (nonDeg modes) (degPairs modes) (fun i => f (w i).val) (fun i j => f (x i j).val)
      (g.map fun G i j => f (G i j).val) (f e0.val) s.v1 s.v2 = some (E f s) := fun f =>
    stateEnergy_real _ _ _ _ _ _ s (fun i hi j hj => by rw [hx i (m1 i hi) j (m1 j hj)])
      (fun i hi j hj G hG => by
        obtain ⟨G', rfl, rfl⟩ := Option.map_eq_some_iff.1 hG
        exact congrArg (fun y => f (Fl.val y)) (hg i (m1 i (List.mem_append_right _ hi)) j (m1 j (List.mem_append_right _ hj)) G' rfl))
      hl.1 hl.2 (hgs.imp_right fun h => by simpa using h)
  obtain rfl : E id s = a := Option.some.inj ((real id).symm.trans e1)
  obtain rfl : E abs s = T := Option.some.inj ((real abs).symm.trans e3)
  refine ⟨_, hr1, ?_⟩
  have gs := growth_small hr (((nonDeg modes).length + (degPairs modes).length) * ((nonDeg modes).length + (degPairs modes).length) + 13) (by
    rw [← pow_two]; push_cast at hu ⊢; exact hu)
  refine acc.1.trans (mul_le_mul_of_nonneg_right (gs.trans (le_of_eq ?_)) ((abs_nonneg _).trans acc.2))
  rw [← pow_two]
  push_cast
  ring

/-- A non-degenerate and a doubly degenerate mode, the ground state and one with angular momentum, arithmetic with 53 binary digits: the
hypotheses of C116 hold. -/
example : let modes : List Mode := [.i1 2, .i2 0 1]
    let states : List State := [.i12st [0] [(0, 0)], .i12st [1] [(1, 1)]]
    let w : Vec (Fl (nearest 53)) := fun i => ⟨1000 + i⟩
    let x : Mat (Fl (nearest 53)) := fun i j => ⟨-(i * j : ℝ)⟩
    Rounds (2 ^ (-(53 : ℕ) : ℤ)) (nearest 53) ∧
    ((((nonDeg modes).length + (degPairs modes).length) ^ 2 : ℕ) + 13 : ℝ) * 2 ^ (-(53 : ℕ) : ℤ) ≤ 1 / 2 ∧
    (∀ i ∈ modeNumbers modes, ∀ j ∈ modeNumbers modes, x i j = x j i) ∧
    ∃ eng, part1Eng states.length (Mode.partition modes).1 (Mode.partition modes).2.1 w x (some x) ⟨1⟩ (State.partition states)
      [⟨0⟩, ⟨0⟩] = some eng := by
  intro modes states w x
  refine ⟨c107_nearest 53 (by norm_num), ?_, fun i _ j _ => by simp [x, mul_comm], ?_⟩
  · rw [show (nonDeg modes).length + (degPairs modes).length = 2 from rfl]
    norm_num
  · exact ⟨_, rfl⟩

end Verif
