import Verif.Lemmas.EquivalentFields
import Verif.Lemmas.Xcals
import Verif.Props.Mode

/-!
# The modes of a symmetric molecule

Helpers for C106.
-/

namespace Verif

open Finset

/-- The lists of modes the code works with if close frequencies are equal and at most twofold. -/
theorem degModes_parts {rotor : Rotor} (hs : rotor.isSymTop = true) {N : Nat} {w : Nat → ℝ} (hp : ∀ i < N, 1 / 10 < w i)
    (hd : Separated N (1 / 10) w)
    (h3 : ∀ i j k, i < N → j < N → k < N → i ≠ j → i ≠ k → j ≠ k → w i = w j → w j ≠ w k) :
    (nonDeg (degModes rotor N w) ++ (degPairs (degModes rotor N w)).map (·.1) ++ (degPairs (degModes rotor N w)).map (·.2)).Perm
      (List.range N) ∧
    (∀ k, k ∈ nonDeg (degModes rotor N w) → k < N ∧ ∀ j < N, j ≠ k → w j ≠ w k) ∧
    ∀ t : Nat × Nat, t ∈ degPairs (degModes rotor N w) ↔ t.1 < t.2 ∧ t.2 < N ∧ w t.1 = w t.2 := by
  have ten : (0.1 : ℝ) = 1 / 10 := by norm_num
  have ab : ∀ i < N, 0.1 < |w i| := fun i hi => by
    rw [ten]; exact lt_of_lt_of_le (hp i hi) (le_abs_self _)
  have eq : ∀ i j, i < N → j < N → |w i - w j| < 0.1 → w i = w j := fun i j hi hj h => hd i j hi hj (by rw [← ten]; exact h)
  have no3 : degTriples N w = [] := by
    rw [List.eq_nil_iff_forall_not_mem]
    rintro ⟨i, j, k⟩ h
    obtain ⟨⟨a, b, c⟩, d, e, -⟩ := degTriples_iff.1 h
    have e1 := eq i j (by omega) (by omega) d
    have e2 := eq i k (by omega) (by omega) e
    exact h3 i j k (by omega) (by omega) (by omega) (by omega) (by omega) (by omega) e1 (by rw [← e1, e2])
  have two : ∀ t : Nat × Nat, t ∈ degPairs (degModes rotor N w) ↔ t.1 < t.2 ∧ t.2 < N ∧ w t.1 = w t.2 := by
    rintro ⟨i, j⟩
    rw [mem_degPairs, mem_degModes_sym hs]
    constructor
    · rintro (⟨p, -, e⟩ | ⟨⟨a, b⟩, hab, e⟩ | ⟨_, _, _, _, e⟩)
      · cases e
      · simp only [Mode.i2.injEq] at e
        obtain ⟨rfl, rfl⟩ := e
        obtain ⟨⟨a, b⟩, c, -⟩ := degDoubles_iff.1 hab
        exact ⟨a, b, eq i j (by omega) b c⟩
      · cases e
    · rintro ⟨a, b, c⟩
      dsimp only at a b c
      refine .inr (.inl ⟨(i, j), degDoubles_iff.2 ⟨⟨a, b⟩, ?_, ab i (by omega), ab j b, ?_, ?_⟩, rfl⟩)
      · rw [c, sub_self, abs_zero]; norm_num
      · rw [no3]; rfl
      · rw [no3]; rfl
  refine ⟨?_, ?_, two⟩
  · refine (modeNumbers_perm _).symm.trans ?_
    have key := c17_exactly_once_partial rotor N w
      (fun i j k hi hj hk _ _ _ h1 h2 => by
        rw [eq i j hi hj h1, eq j k hj hk h2, sub_self, abs_zero]; norm_num)
      (fun s h1 h2 => by
        by_contra hc
        have : 2 < s.card := by omega
        obtain ⟨i, j, k, hi, hj, hk, hij, hik, hjk⟩ := two_lt_card_iff.1 this
        exact h3 i j k (h1 i hi).1 (h1 j hj).1 (h1 k hk).1 hij hik hjk (eq i j (h1 i hi).1 (h1 j hj).1 (h2 i hi j hj))
          (eq j k (h1 j hj).1 (h1 k hk).1 (h2 j hj k hk)))
    have e : (degModes rotor N w).flatMap Mode.members = modeNumbers (degModes rotor N w) := by
      unfold modeNumbers
      refine List.flatMap_congr fun m hm => ?_
      rcases (mem_degModes_sym hs).1 hm with ⟨p, h, -⟩ | ⟨p, -, rfl⟩ | ⟨i, -, -, -, rfl⟩
      · rw [no3] at h; cases h
      · rfl
      · rfl
    rw [e] at key
    refine (List.perm_ext_iff_of_nodup key.1 List.nodup_range).2 fun i => ?_
    rw [key.2 i, List.mem_range]
  · intro k hk
    rw [mem_nonDeg] at hk
    rcases (mem_degModes_sym hs).1 hk with ⟨p, h, -⟩ | ⟨p, -, e⟩ | ⟨i, hi, -, h2, e⟩
    · rw [no3] at h; cases h
    · cases e
    · simp only [Mode.i1.injEq] at e
      subst e
      refine ⟨hi, fun j hj hjk he => ?_⟩
      have hno : ∀ p ∈ degDoubles N w, k ≠ p.1 ∧ k ≠ p.2 := by
        intro p hp
        have := List.any_eq_false.1 h2 p hp
        simp only [Bool.or_eq_true, beq_iff_eq, not_or] at this
        exact this
      have mk : ∀ i j, i < j → j < N → w i = w j → (i, j) ∈ degDoubles N w := fun i j h1 h2 h =>
        degDoubles_iff.2 ⟨⟨h1, h2⟩, by rw [h, sub_self, abs_zero]; norm_num, ab i (by omega), ab j h2, by rw [no3]; rfl, by rw [no3]; rfl⟩
      rcases Nat.lt_or_gt_of_ne hjk with h | h
      · exact (hno _ (mk j k h hi he)).2 rfl
      · exact (hno _ (mk k j h hj he.symm)).1 rfl

section
variable {natom : Nat} {mass : Nat → ℝ} {pos axes f2 : Nat → Nat → ℝ} {f3 : Nat → Nat → Nat → ℝ}
  {f4 : Nat → Nat → Nat → Nat → ℝ} {π π' : Nat → Nat} {M : Nat → Nat → ℝ}

theorem SymmetryOf.places (h : SymmetryOf natom pos mass axes f2 f3 f4 π M) : Places natom pos π M := by
  refine ⟨h.atom, fun a ha c hc => ?_⟩
  rw [h.place a ha c hc]
  simp only [sum_range_succ, sum_range_zero, zero_add]

theorem SymmetryOf.op (h : SymmetryOf natom pos mass axes f2 f3 f4 π M) (hM : Isometry3 M) (hπ' : ∀ a < natom, π' a < natom)
    (i1 : ∀ a < natom, π (π' a) = a) (i2 : ∀ a < natom, π' (π a) = a) : Op (3 * natom) mass (brought π M) where
  combine := fun _ _ _ _ _ huv r hr => carried_combine h.atom M huv r hr
  iso := fun u v => massForm_carried h.atom hπ' i1 i2 h.mass hM u v

/-- Normal modes brought along are normal modes. -/
theorem SymmetryOf.mode (h : SymmetryOf natom pos mass axes f2 f3 f4 π M) (ho : Op (3 * natom) mass (brought π M))
    (hax : Orthogonal3 axes) (hinv : ∀ u : Nat → ℝ, ∃ u', ∀ r < 3 * natom, brought π M u' r = u r) {c l : ℝ} {d : Nat → ℝ}
    (hd : ∀ t, c * form2 (3 * natom) f2 t (applyAxes axes d) = l * massForm (3 * natom) mass t (applyAxes axes d)) (t : Nat → ℝ) :
    c * form2 (3 * natom) f2 t (applyAxes axes (brought π M d)) =
      l * massForm (3 * natom) mass t (applyAxes axes (brought π M d)) := by
  -- `t` is a turned displacement
  let u : Nat → ℝ := fun x => ∑ p ∈ range 3, axes p (x % 3) * t (3 * (x / 3) + p)
  have hu : ∀ x, applyAxes axes u x = t x := by
    intro x
    unfold applyAxes
    have hx : x % 3 < 3 := Nat.mod_lt _ (by omega)
    have e : ∀ q ∈ range 3, axes (x % 3) q * u (3 * (x / 3) + q) =
        ∑ p ∈ range 3, axes (x % 3) q * axes p q * t (3 * (x / 3) + p) := by
      intro q hq
      have hq := mem_range.1 hq
      simp only [u]
      rw [mul_sum, show (3 * (x / 3) + q) % 3 = q by omega, show (3 * (x / 3) + q) / 3 = x / 3 by omega]
      exact sum_congr rfl fun p _ => by ring
    rw [sum_congr rfl e, sum_comm]
    have e' : ∀ p ∈ range 3, ∑ q ∈ range 3, axes (x % 3) q * axes p q * t (3 * (x / 3) + p) =
        if p = x % 3 then t x else 0 := by
      intro p hp
      have hp := mem_range.1 hp
      rw [← sum_mul, hax.2 _ _ hx hp]
      by_cases hpx : x % 3 = p
      · rw [if_pos hpx, if_pos hpx.symm, one_mul]
        congr 1
        omega
      · rw [if_neg hpx, if_neg (Ne.symm hpx), zero_mul]
    rw [sum_congr rfl e', sum_ite_eq', if_pos (mem_range.2 hx)]
  obtain ⟨u', hu'⟩ := hinv u
  have ht : ∀ r < 3 * natom, t r = applyAxes axes (brought π M u') r := fun r hr => by
    rw [applyAxes_congr hu' r hr, hu]
  have a : form2 (3 * natom) f2 t (applyAxes axes (brought π M d)) =
      form2 (3 * natom) f2 (applyAxes axes (brought π M u')) (applyAxes axes (brought π M d)) := by
    unfold form2
    exact sum_congr rfl fun x hx => sum_congr rfl fun y _ => by rw [ht x (mem_range.1 hx)]
  have b : massForm (3 * natom) mass t (applyAxes axes (brought π M d)) =
      massForm (3 * natom) mass (applyAxes axes (brought π M u')) (applyAxes axes (brought π M d)) :=
    mf_congr ht fun _ _ => rfl
  rw [a, b, h.second, massForm_rotate _ _ _ hax, ho.iso, hd, massForm_rotate _ _ _ hax]

end

/-- An orthogonal change of axes can be taken back. -/
theorem applyAxes_combine {natom : Nat} {axes : Nat → Nat → ℝ} (hax : Orthogonal3 axes) {u v v' : Nat → ℝ} {a b : ℝ}
    (h : ∀ r < 3 * natom, applyAxes axes u r = a * applyAxes axes v r + b * applyAxes axes v' r) :
    ∀ r < 3 * natom, u r = a * v r + b * v' r := by
  intro r hr
  rw [← applyAxes_back hax u r, ← applyAxes_back hax v r, ← applyAxes_back hax v' r, mul_sum, mul_sum, ← sum_add_distrib]
  refine sum_congr rfl fun p hp => ?_
  have := mem_range.1 hp
  rw [h (3 * (r / 3) + p) (by omega)]
  ring

/-- The displacements of the modes turn and flip as they should. -/
theorem modes_turn {natom N : Nat} {mass w : Nat → ℝ} {pos axes f2 : Nat → Nat → ℝ} {f3 : Nat → Nat → Nat → ℝ}
    {f4 : Nat → Nat → Nat → Nat → ℝ} {π ρ : Nat → Nat} {e c : ℝ} {d : Nat → Nat → ℝ} {iatom : Nat} (he : e = 1 ∨ e = -1)
    (hπ : SymmetryOf natom pos mass axes f2 f3 f4 π thirdTurn) (hρ : SymmetryOf natom pos mass axes f2 f3 f4 ρ (flipAxes e))
    (hdist : ∀ a < natom, ∀ b < natom, (∀ c < 3, pos a c = pos b c) → a = b) (hax : Orthogonal3 axes)
    (hat : iatom < natom) (hon : pos iatom 1 = 0 ∧ (e = -1 → pos iatom 2 = 0))
    (N1 : ∀ i < N, ∀ t, c * form2 (3 * natom) f2 t (applyAxes axes (d i)) =
      w i * |w i| * massForm (3 * natom) mass t (applyAxes axes (d i)))
    (N2 : ∀ i < N, ∀ j < N, massForm (3 * natom) mass (applyAxes axes (d i)) (applyAxes axes (d j)) = if i = j then 1 else 0)
    (hT : TwoFold N (3 * natom) c f2 mass w (fun i => applyAxes axes (d i)))
    (hacc : ∀ i j, i < j → j < N → w i = w j → ¬ ∀ r < 3 * natom, brought π thirdTurn (d i) r = d i r)
    (hal : ∀ i j, i < j → j < N → w i = w j → d i (3 * iatom) ≠ 0 ∧ d j (3 * iatom) = 0 ∨
      e = -1 ∧ d i (3 * iatom + 2) = 0 ∧ d j (3 * iatom + 2) ≠ 0) :
    ∃ π' ρ' : Nat → Nat, (∀ a < natom, π' a < natom) ∧ (∀ a < natom, ρ' a < natom) ∧ (∀ a < natom, π (π' a) = a) ∧
      (∀ a < natom, π' (π a) = a) ∧ (∀ a < natom, ρ (ρ' a) = a) ∧ (∀ a < natom, ρ' (ρ a) = a) ∧
    ∃ s p : Nat → ℝ, (∀ i, s i = 1 ∨ s i = -1) ∧ (∀ i < N, p i = 1 ∨ p i = -1) ∧
      (∀ i < N, (∀ j < N, j ≠ i → w j ≠ w i) → ∀ r < 3 * natom, brought π thirdTurn (d i) r = d i r) ∧
      (∀ i j, i < j → j < N → w i = w j → (p i = 1 ∧ p j = -1) ∧
        (∀ r < 3 * natom, brought π thirdTurn (d i) r = -1 / 2 * d i r + s i * (Real.sqrt 3 / 2) * d j r) ∧
        ∀ r < 3 * natom, brought π thirdTurn (d j) r = -(s i * (Real.sqrt 3 / 2)) * d i r + -1 / 2 * d j r) ∧
      (∀ i < N, ∀ r < 3 * natom, brought ρ (flipAxes e) (d i) r = p i * d i r) ∧
      ∀ i < N, (p i = 1 ↔ ∀ r < 3 * natom, brought ρ (flipAxes e) (d i) r = d i r) := by
  obtain ⟨p3, t3⟩ := (hπ.places.mul (hπ.places.mul hπ.places)).one turn_cube hdist
  obtain ⟨p2, t2⟩ := (hρ.places.mul hρ.places).one (flip_square he) hdist
  obtain ⟨-, tf⟩ := (hρ.places.mul (hπ.places.mul (hρ.places.mul hπ.places))).one (flip_turn he) hdist
  have hp2 : ∀ a < natom, π (π a) < natom := fun a ha => hπ.atom _ (hπ.atom a ha)
  refine ⟨fun a => π (π a), ρ, hp2, hρ.atom, p3, p3, p2, p2, ?_⟩
  have C := hπ.op thirdTurn_isometry hp2 p3 p3
  have F := hρ.op (flipAxes_isometry he) hρ.atom p2 p2
  have t3' : ∀ u, ∀ r < 3 * natom, brought π thirdTurn (brought π thirdTurn (brought π thirdTurn u)) r = u r := fun u r hr => by
    have e1 : brought π thirdTurn (brought π thirdTurn u) = brought (fun a => π (π a)) (mul3 thirdTurn thirdTurn) u := by
      funext r; exact carried_carried ..
    rw [e1, carried_carried]
    exact t3 u r hr
  have t2' : ∀ u, ∀ r < 3 * natom, brought ρ (flipAxes e) (brought ρ (flipAxes e) u) r = u r := fun u r hr => by
    rw [carried_carried]
    exact t2 u r hr
  have tf' : ∀ u, ∀ r < 3 * natom, brought ρ (flipAxes e) (brought π thirdTurn (brought ρ (flipAxes e) (brought π thirdTurn u))) r =
      u r := fun u r hr => by
    have e1 : brought ρ (flipAxes e) (brought π thirdTurn u) = brought (fun a => π (ρ a)) (mul3 (flipAxes e) thirdTurn) u := by
      funext r; exact carried_carried ..
    have e2 : brought π thirdTurn (brought (fun a => π (ρ a)) (mul3 (flipAxes e) thirdTurn) u) =
        brought (fun a => π (ρ (π a))) (mul3 thirdTurn (mul3 (flipAxes e) thirdTurn)) u := by
      funext r; exact carried_carried ..
    rw [e1, e2, carried_carried]
    exact tf u r hr
  have nrm : ∀ i < N, ∀ j < N, massForm (3 * natom) mass (d i) (d j) = if i = j then 1 else 0 := fun i hi j hj => by
    rw [← massForm_rotate _ _ _ hax]; exact N2 i hi j hj
  obtain ⟨P1, P2, P3⟩ := twofold_pair hT N1 N2
  have cm : ∀ i < N, ∀ t, c * form2 (3 * natom) f2 t (applyAxes axes (brought π thirdTurn (d i))) =
      w i * |w i| * massForm (3 * natom) mass t (applyAxes axes (brought π thirdTurn (d i))) := fun i hi =>
    hπ.mode C hax (fun u => ⟨_, t3' u⟩) (N1 i hi)
  have fm : ∀ i < N, ∀ t, c * form2 (3 * natom) f2 t (applyAxes axes (brought ρ (flipAxes e) (d i))) =
      w i * |w i| * massForm (3 * natom) mass t (applyAxes axes (brought ρ (flipAxes e) (d i))) := fun i hi =>
    hρ.mode F hax (fun u => ⟨_, t2' u⟩) (N1 i hi)
  have single : ∀ i < N, (∀ j < N, j ≠ i → w j ≠ w i) → ∀ r < 3 * natom, brought π thirdTurn (d i) r = d i r := by
    intro i hi h
    obtain ⟨a, ha⟩ := P3 i hi h _ (cm i hi)
    have ha' := applyAxes_combine (natom := natom) hax (u := brought π thirdTurn (d i)) (v := d i) (v' := d i) (a := a) (b := 0)
      fun r hr => by rw [ha r hr]; ring
    exact turn_single C t3' (by rw [nrm i hi i hi, if_pos rfl]) fun r hr => by rw [ha' r hr]; ring
  have singleF : ∀ i < N, (∀ j < N, j ≠ i → w j ≠ w i) → ∃ q : ℝ, (q = 1 ∨ q = -1) ∧
      ∀ r < 3 * natom, brought ρ (flipAxes e) (d i) r = q * d i r := by
    intro i hi h
    obtain ⟨a, ha⟩ := P3 i hi h _ (fm i hi)
    have ha' := applyAxes_combine (natom := natom) hax (u := brought ρ (flipAxes e) (d i)) (v := d i) (v' := d i) (a := a) (b := 0)
      fun r hr => by rw [ha r hr]; ring
    have ha'' : ∀ r < 3 * natom, brought ρ (flipAxes e) (d i) r = a * d i r := fun r hr => by rw [ha' r hr]; ring
    exact ⟨a, flip_single F (by rw [nrm i hi i hi, if_pos rfl]) ha'', ha''⟩
  -- the reference atom stays
  have stay : ρ iatom = iatom := by
    have h := hρ.places.2 iatom hat
    refine (hdist iatom hat _ (hρ.atom iatom hat) fun k hk => ?_).symm
    have h0 := h 0 (by norm_num)
    have h1 := h 1 (by norm_num)
    have h2 := h 2 (by norm_num)
    rcases he with rfl | rfl
    · simp [flipAxes] at h0 h1 h2
      have := hon.1
      interval_cases k
      · exact h0
      · linarith
      · exact h2
    · simp [flipAxes] at h0 h1 h2
      have := hon.1
      have := hon.2 rfl
      interval_cases k
      · exact h0
      · linarith
      · linarith
  have fx : ∀ u, brought ρ (flipAxes e) u (3 * iatom) = u (3 * iatom) := fun u => by
    have := carried_at ρ (flipAxes e) u iatom 0 (by norm_num)
    rw [add_zero, stay] at this
    rw [this]
    simp [flipAxes]
  have fz : ∀ u, brought ρ (flipAxes e) u (3 * iatom + 2) = e * u (3 * iatom + 2) := fun u => by
    rw [carried_at ρ (flipAxes e) u iatom 2 (by norm_num), stay]
    simp [flipAxes]
  have pair : ∀ i j, i < j → j < N → w i = w j → (∃ σ : ℝ, (σ = 1 ∨ σ = -1) ∧
      (∀ r < 3 * natom, brought π thirdTurn (d i) r = -1 / 2 * d i r + σ * (Real.sqrt 3 / 2) * d j r) ∧
      ∀ r < 3 * natom, brought π thirdTurn (d j) r = -(σ * (Real.sqrt 3 / 2)) * d i r + -1 / 2 * d j r) ∧
      (∀ r < 3 * natom, brought ρ (flipAxes e) (d i) r = d i r) ∧
      ∀ r < 3 * natom, brought ρ (flipAxes e) (d j) r = -d j r := by
    intro i j hij hj hw
    have hi : i < N := by omega
    have ni : massForm (3 * natom) mass (d i) (d i) = 1 := by rw [nrm i hi i hi, if_pos rfl]
    have nj : massForm (3 * natom) mass (d j) (d j) = 1 := by rw [nrm j hj j hj, if_pos rfl]
    have nij : massForm (3 * natom) mass (d i) (d j) = 0 := by rw [nrm i hi j hj, if_neg (by omega)]
    have span := P2 i j hi hj (by omega) hw
    obtain ⟨a, b, h1⟩ := span _ (cm i hi)
    obtain ⟨a', b', h2⟩ := span _ (by rw [hw]; exact cm j hj)
    obtain ⟨f, g, h3⟩ := span _ (fm i hi)
    obtain ⟨f', g', h4⟩ := span _ (by rw [hw]; exact fm j hj)
    have h1 := applyAxes_combine hax h1
    have h2 := applyAxes_combine hax h2
    have h3 := applyAxes_combine hax h3
    have h4 := applyAxes_combine hax h4
    obtain ⟨rfl, rfl, rfl, hb⟩ := turn_pair C t3' ni nj nij h1 h2 (hacc i j hij hj hw)
    obtain ⟨rfl, rfl, hfg⟩ := flip_pair C F t2' tf' ni nj nij h1 h2 hb h3 h4
    have hf : f = 1 := by
      rcases hal i j hij hj hw with ⟨x1, x2⟩ | ⟨he', z1, z2⟩
      · have := h3 (3 * iatom) (by omega)
        rw [fx, x2] at this
        have q : (f - 1) * d i (3 * iatom) = 0 := by linarith
        rcases mul_eq_zero.1 q with q | q
        · linarith
        · exact absurd q x1
      · have := h4 (3 * iatom + 2) (by omega)
        rw [fz, z1, he'] at this
        have q : (f - 1) * d j (3 * iatom + 2) = 0 := by linarith
        rcases mul_eq_zero.1 q with q | q
        · linarith
        · exact absurd q z2
    have hg : f' = 0 := by
      rw [hf] at hfg
      exact (pow_eq_zero_iff (by norm_num)).1 (show f' ^ 2 = 0 by linarith)
    refine ⟨⟨b / (Real.sqrt 3 / 2), ?_, fun r hr => ?_, fun r hr => ?_⟩, fun r hr => ?_, fun r hr => ?_⟩
    · have h3 := root3
      have : Real.sqrt 3 ≠ 0 := (Real.sqrt_pos.2 (by norm_num)).ne'
      refine mul_self_eq_one_iff.1 ?_
      field_simp
      rw [pow_two (Real.sqrt 3), h3]
      linarith
    · rw [h1 r hr, div_mul_cancel₀ _ (by have := Real.sqrt_pos.2 (show (0 : ℝ) < 3 by norm_num); positivity)]
    · rw [h2 r hr, div_mul_cancel₀ _ (by have := Real.sqrt_pos.2 (show (0 : ℝ) < 3 by norm_num); positivity)]
    · rw [h3 r hr, hf, hg]; ring
    · rw [h4 r hr, hf, hg]; ring
  have sense : ∀ i, ∃ σ : ℝ, (σ = 1 ∨ σ = -1) ∧ ∀ j, i < j → j < N → w i = w j →
      (∀ r < 3 * natom, brought π thirdTurn (d i) r = -1 / 2 * d i r + σ * (Real.sqrt 3 / 2) * d j r) ∧
      ∀ r < 3 * natom, brought π thirdTurn (d j) r = -(σ * (Real.sqrt 3 / 2)) * d i r + -1 / 2 * d j r := by
    intro i
    by_cases h : ∃ j, i < j ∧ j < N ∧ w i = w j
    · obtain ⟨j, h1, h2, h3⟩ := h
      obtain ⟨⟨σ, hσ, hh⟩, -⟩ := pair i j h1 h2 h3
      refine ⟨σ, hσ, fun k k1 k2 k3 => ?_⟩
      by_cases hk : k = j
      · subst hk; exact hh
      · exact absurd (h3.symm.trans k3) (P1 i j k (by omega) h2 k2 (by omega) (by omega) (Ne.symm hk) h3)
    · push Not at h
      exact ⟨1, .inl rfl, fun j h1 h2 h3 => absurd h3 (h j h1 h2)⟩
  choose s hs using sense
  classical
  let p : Nat → ℝ := fun i => if ∀ r < 3 * natom, brought ρ (flipAxes e) (d i) r = d i r then 1 else -1
  have even : ∀ i, (p i = 1 ↔ ∀ r < 3 * natom, brought ρ (flipAxes e) (d i) r = d i r) := by
    intro i
    simp only [p]
    split
    · next h => exact ⟨fun _ => h, fun _ => rfl⟩
    · next h => exact ⟨fun q => by norm_num at q, fun q => absurd q h⟩
  have hp : ∀ i, p i = 1 ∨ p i = -1 := fun i => by
    simp only [p]
    split
    · exact .inl rfl
    · exact .inr rfl
  have odd : ∀ i < N, (∀ r < 3 * natom, brought ρ (flipAxes e) (d i) r = -d i r) → p i = -1 := by
    intro i hi h
    refine (hp i).resolve_left fun q => ?_
    have q := (even i).1 q
    have n := nrm i hi i hi
    rw [if_pos rfl, mf_left (v := d i) (v' := d i) (a := 0) (b := 0) fun r hr => by
      have := h r hr
      have := q r hr
      linarith] at n
    simp at n
  refine ⟨s, p, fun i => (hs i).1, fun i _ => hp i, single, fun i j h1 h2 h3 => ?_, fun i hi r hr => ?_, fun i _ => even i⟩
  · obtain ⟨-, f1, f2⟩ := pair i j h1 h2 h3
    exact ⟨⟨(even i).2 f1, odd j h2 f2⟩, (hs i).2 j h1 h2 h3⟩
  · by_cases h : ∀ j < N, j ≠ i → w j ≠ w i
    · obtain ⟨q, hq, hh⟩ := singleF i hi h
      rcases hq with rfl | rfl
      · rw [(even i).2 fun r hr => by rw [hh r hr, one_mul]]
        exact hh r hr
      · rw [odd i hi fun r hr => by rw [hh r hr]; ring]
        exact hh r hr
    · push Not at h
      obtain ⟨j, hj, hji, hw⟩ := h
      rcases Nat.lt_or_gt_of_ne hji with hlt | hlt
      · obtain ⟨-, -, f2⟩ := pair j i hlt hi hw
        rw [odd i hi f2, f2 r hr]; ring
      · obtain ⟨-, f1, -⟩ := pair i j hlt hj hw.symm
        rw [(even i).2 f1, f1 r hr]; ring

end Verif
