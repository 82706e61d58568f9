import Verif.Lemmas.ThreefoldRun
import Verif.Props.RovibLinear

/-!
# The data of a completed run and the Hamiltonian of vibration and rotation
-/

namespace Verif

open Finset Osc

/-- The operators of the Hamiltonian only depend on the constants of the vibrations which exist. -/
theorem rotOperators_congr {N : Nat} {κ : ℝ} {I w w' : Nat → ℝ} {A A' φ φ' ζ ζ' : Nat → Nat → Nat → ℝ}
    {ψ ψ' : Nat → Nat → Nat → Nat → ℝ} {J : Nat → ℝ} (hw : ∀ i < N, w' i = w i)
    (hA : ∀ k a b, k < N → a < 3 → b < 3 → A' k a b = A k a b)
    (h3 : ∀ i j k, i < N → j < N → k < N → φ' i j k = φ i j k)
    (h4 : ∀ i j k l, i < N → j < N → k < N → l < N → ψ' i j k l = ψ i j k l)
    (hz : ∀ i j a, i < N → j < N → a < 3 → ζ' i j a = ζ i j a) :
    (Osc.harmonic w' : Wave N → _) = Osc.harmonic w ∧
    (fun p : Wave N => cubic φ' p + linear (fun k => ∑ a ∈ range 3, ∑ b ∈ range 3, recip1 κ I w' A' a b k * J a * J b) p) =
      (fun p => cubic φ p + linear (fun k => ∑ a ∈ range 3, ∑ b ∈ range 3, recip1 κ I w A a b k * J a * J b) p) ∧
    (fun p : Wave N => ∑ a ∈ range 3, (2 * (κ / I a) * J a) • angular w' ζ' a p) =
      (fun p => ∑ a ∈ range 3, (2 * (κ / I a) * J a) • angular w ζ a p) ∧
    (fun p : Wave N => quartic ψ' p + Osc.coriolis w' ζ' (fun a => κ / I a) p + (∑ a ∈ range 3, κ / I a * J a ^ 2) • p +
        quadratic (fun k l => ∑ a ∈ range 3, ∑ b ∈ range 3, recip2 κ I w' A' a b k l * J a * J b) p) =
      (fun p => quartic ψ p + Osc.coriolis w ζ (fun a => κ / I a) p + (∑ a ∈ range 3, κ / I a * J a ^ 2) • p +
        quadratic (fun k l => ∑ a ∈ range 3, ∑ b ∈ range 3, recip2 κ I w A a b k l * J a * J b) p) ∧
    (fun p : Wave N => ∑ b ∈ range 3, linear (fun k => 2 * ∑ a ∈ range 3, recip1 κ I w' A' a b k * J a) (angular w' ζ' b p)) =
      (fun p => ∑ b ∈ range 3, linear (fun k => 2 * ∑ a ∈ range 3, recip1 κ I w A a b k * J a) (angular w ζ b p)) := by
  have e0 : (Osc.harmonic w' : Wave N → _) = Osc.harmonic w := by
    funext p; unfold Osc.harmonic; exact sum_congr rfl fun i _ => by rw [hw i i.2]
  have e1 : (Osc.cubic φ' : Wave N → _) = Osc.cubic φ := by
    funext p; unfold Osc.cubic
    exact congrArg _ (sum_congr rfl fun i _ => sum_congr rfl fun j _ => sum_congr rfl fun k _ => by rw [h3 i j k i.2 j.2 k.2])
  have e2 : (Osc.quartic ψ' : Wave N → _) = Osc.quartic ψ := by
    funext p; unfold Osc.quartic
    exact congrArg _ (sum_congr rfl fun i _ => sum_congr rfl fun j _ => sum_congr rfl fun k _ => sum_congr rfl fun l _ => by
      rw [h4 i j k l i.2 j.2 k.2 l.2])
  have ea : ∀ a ∈ range 3, (Osc.angular w' ζ' a : Wave N → _) = Osc.angular w ζ a := by
    intro a ha
    funext p; unfold Osc.angular
    exact sum_congr rfl fun k _ => sum_congr rfl fun l _ => by rw [hz k l a k.2 l.2 (mem_range.1 ha), hw k k.2, hw l l.2]
  have e3 : (Osc.coriolis w' ζ' (fun a => κ / I a) : Wave N → _) = Osc.coriolis w ζ (fun a => κ / I a) := by
    funext p; unfold Osc.coriolis
    exact congrArg _ (sum_congr rfl fun a ha => by rw [ea a ha])
  have r1 : ∀ a ∈ range 3, ∀ b ∈ range 3, ∀ k < N, recip1 κ I w' A' a b k = recip1 κ I w A a b k := by
    intro a ha b hb k hk
    unfold recip1
    rw [hw k hk, hA k a b hk (mem_range.1 ha) (mem_range.1 hb)]
  have r2 : ∀ a ∈ range 3, ∀ b ∈ range 3, ∀ k l, k < N → l < N → recip2 κ I w' A' a b k l = recip2 κ I w A a b k l := by
    intro a ha b hb k l hk hl
    unfold recip2
    rw [hw k hk, hw l hl]
    congr 2
    exact sum_congr rfl fun y hy => by
      rw [hA k a y hk (mem_range.1 ha) (mem_range.1 hy), hA l y b hl (mem_range.1 hy) (mem_range.1 hb)]
  have lin : ∀ c c' : Nat → ℝ, (∀ k < N, c' k = c k) → ∀ p : Wave N, linear c' p = linear c p := by
    intro c c' h p
    unfold linear
    exact sum_congr rfl fun k _ => by rw [h k k.2]
  refine ⟨e0, funext fun p => ?_, funext fun p => ?_, funext fun p => ?_, funext fun p => ?_⟩
  · rw [e1, lin _ _ fun k hk => sum_congr rfl fun a ha => sum_congr rfl fun b hb => by rw [r1 a ha b hb k hk]]
  · exact sum_congr rfl fun a ha => by rw [ea a ha]
  · rw [e2, e3]
    congr 1
    unfold quadratic
    exact sum_congr rfl fun k _ => sum_congr rfl fun l _ => congrArg₂ _ (sum_congr rfl fun a ha => sum_congr rfl fun b hb => by
      rw [r2 a ha b hb k l k.2 l.2]) rfl
  · refine sum_congr rfl fun b hb => ?_
    rw [ea b hb, lin _ _ fun k hk => congrArg _ (sum_congr rfl fun a ha => by rw [r1 a ha b hb k hk])]

theorem rotEnergy_congr {N : Nat} {κ : ℝ} {I w w' : Nat → ℝ} {A A' φ φ' ζ ζ' : Nat → Nat → Nat → ℝ}
    {ψ ψ' : Nat → Nat → Nat → Nat → ℝ} {J : Nat → ℝ} (hw : ∀ i < N, w' i = w i)
    (hA : ∀ k a b, k < N → a < 3 → b < 3 → A' k a b = A k a b)
    (h3 : ∀ i j k, i < N → j < N → k < N → φ' i j k = φ i j k)
    (h4 : ∀ i j k l, i < N → j < N → k < N → l < N → ψ' i j k l = ψ i j k l)
    (hz : ∀ i j a, i < N → j < N → a < 3 → ζ' i j a = ζ i j a) {n : Fin N → Nat} {E0 E1 E2 : ℝ} :
    RotEnergy κ I A' w' φ' ψ' ζ' J n E0 E1 E2 ↔ RotEnergy κ I A w φ ψ ζ J n E0 E1 E2 := by
  obtain ⟨a, b, c, d, e⟩ := rotOperators_congr (κ := κ) (I := I) (J := J) hw hA h3 h4 hz
  unfold RotEnergy
  rw [a, b, c, d, e]

theorem rotPairEnergy_congr {N : Nat} {κ : ℝ} {I w w' : Nat → ℝ} {A A' φ φ' ζ ζ' : Nat → Nat → Nat → ℝ}
    {ψ ψ' : Nat → Nat → Nat → Nat → ℝ} {J : Nat → ℝ} (hw : ∀ i < N, w' i = w i)
    (hA : ∀ k a b, k < N → a < 3 → b < 3 → A' k a b = A k a b)
    (h3 : ∀ i j k, i < N → j < N → k < N → φ' i j k = φ i j k)
    (h4 : ∀ i j k l, i < N → j < N → k < N → l < N → ψ' i j k l = ψ i j k l)
    (hz : ∀ i j a, i < N → j < N → a < 3 → ζ' i j a = ζ i j a) {n n' : Fin N → Nat} {σ E0 E1 E2 : ℝ} :
    RotPairEnergy κ I A' w' φ' ψ' ζ' J n n' σ E0 E1 E2 ↔ RotPairEnergy κ I A w φ ψ ζ J n n' σ E0 E1 E2 := by
  obtain ⟨a, b, c, d, e⟩ := rotOperators_congr (κ := κ) (I := I) (J := J) hw hA h3 h4 hz
  unfold RotPairEnergy
  rw [a, b, c, d, e]

theorem linearRotEnergy_congr {N : Nat} {κ : ℝ} {I w w' : Nat → ℝ} {A A' φ φ' ζ ζ' : Nat → Nat → Nat → ℝ}
    {ψ ψ' : Nat → Nat → Nat → Nat → ℝ} {J : Nat → ℝ} (hw : ∀ i < N, w' i = w i)
    (hA : ∀ k a b, k < N → a < 3 → b < 3 → A' k a b = A k a b)
    (h3 : ∀ i j k, i < N → j < N → k < N → φ' i j k = φ i j k)
    (h4 : ∀ i j k l, i < N → j < N → k < N → l < N → ψ' i j k l = ψ i j k l)
    (hz : ∀ i j a, i < N → j < N → a < 3 → ζ' i j a = ζ i j a) {n : Fin N → Nat} {E0 E1 E2 : ℝ} :
    LinearRotEnergy κ I A' w' φ' ψ' ζ' J n E0 E1 E2 ↔ LinearRotEnergy κ I A w φ ψ ζ J n E0 E1 E2 := by
  rw [linear_rotEnergy, linear_rotEnergy]
  exact rotEnergy_congr hw hA h3 h4 hz

theorem roundedPart_congr {N : Nat} {κ : ℝ} {I w w' : Nat → ℝ} {A A' φ φ' : Nat → Nat → Nat → ℝ} (hw : ∀ i < N, w' i = w i)
    (hA : ∀ k a b, k < N → a < 3 → b < 3 → A' k a b = A k a b)
    (h3 : ∀ i j k, i < N → j < N → k < N → φ' i j k = φ i j k) {i x : Nat} (hi : i < N) (hx : x < 3) :
    roundedPart N κ I w' A' φ' i x = roundedPart N κ I w A φ i x := by
  unfold roundedPart
  exact congrArg _ (sum_congr rfl fun j hj => by
    have hj := mem_range.1 hj
    rw [hw j hj, hA j x x hj hx hx, h3 i i j hi hi hj])

theorem tauSpec_congr {N : Nat} {I w w' : Nat → ℝ} {A A' : Nat → Nat → Nat → ℝ} (hw : ∀ i < N, w' i = w i)
    (hA : ∀ k a b, k < N → a < 3 → b < 3 → A' k a b = A k a b) {x : Nat} (hx : x < 3) :
    tauSpec N w' I A' x x x x = tauSpec N w I A x x x x := by
  unfold tauSpec
  exact congrArg _ (sum_congr rfl fun j hj => by
    have hj := mem_range.1 hj
    rw [hw j hj, hA j x x hj hx hx])

/-- The symmetry of the constants of the vibrations which exist is all that matters. -/
theorem axial_congr {modes : List Mode} {N : Nat} {D D' : VibRot} {s : Nat → ℝ} {m m' : Nat} (hm : m < 3) (hm' : m' < 3)
    (lt : ∀ k, k ∈ modeNumbers modes → k < N) (hI : D'.I = D.I) (hw : ∀ i < N, D'.w i = D.w i)
    (hA : ∀ k a b, k < N → a < 3 → b < 3 → D'.A k a b = D.A k a b)
    (hz : ∀ i j a, i < N → j < N → a < 3 → D'.zeta i j a = D.zeta i j a)
    (h3 : ∀ i j k, i < N → j < N → k < N → D'.F i j k = D.F i j k)
    (anti : ∀ i j x, D'.zeta i j x = -D'.zeta j i x) (cubic : ∀ i j k, D'.F i j k = D'.F j i k ∧ D'.F i j k = D'.F i k j)
    (tensor : ∀ i x y, D'.A i x y = D'.A i y x) (h : D.Axial modes s m m') : D'.Axial modes s m m' := by
  have l1 : ∀ k, .i1 k ∈ modes → k < N := fun k hk => lt k (mem_modeNumbers_single hk)
  have l2 : ∀ k k2, .i2 k k2 ∈ modes → k < N ∧ k2 < N := fun k k2 hk =>
    ⟨lt k (mem_modeNumbers_pair hk).1, lt k2 (mem_modeNumbers_pair hk).2⟩
  refine ⟨by rw [hI]; exact h.inertia, anti, cubic, tensor, fun k hk => ?_, fun k j hk hj => ?_, fun k k2 hk => ?_,
    fun j k k2 hj hk => ?_, fun k k2 j j2 hk hj hne => ?_, fun k k2 j j2 hk hj => ?_⟩
  · have a := l1 k hk
    rw [hA k 0 0 a (by omega) (by omega), hA k 1 1 a (by omega) (by omega), hA k 2 0 a (by omega) (by omega),
      hA k 2 1 a (by omega) (by omega)]
    exact h.single k hk
  · have a := l1 k hk
    have b := l1 j hj
    rw [hz k j 0 a b (by omega), hz k j 1 a b (by omega)]
    exact h.singles k j hk hj
  · obtain ⟨a, b⟩ := l2 k k2 hk
    have ha := fun x y hx hy => hA k x y a hx hy
    have hb := fun x y hx hy => hA k2 x y b hx hy
    rw [hw k a, hw k2 b, ha 2 2 (by omega) (by omega), ha 0 1 (by omega) (by omega), ha 0 0 (by omega) (by omega),
      ha 1 1 (by omega) (by omega), ha 2 m' (by omega) hm', hb 2 2 (by omega) (by omega), hb 0 0 (by omega) (by omega),
      hb 1 1 (by omega) (by omega), hb 2 m (by omega) hm, hb 0 1 (by omega) (by omega), hb 2 m' (by omega) hm', ha 2 m (by omega) hm]
    exact h.pair k k2 hk
  · have a := l1 j hj
    obtain ⟨b, c⟩ := l2 k k2 hk
    rw [hz j k 2 a b (by omega), hz j k2 2 a c (by omega), hz j k2 1 a c (by omega), hz j k 0 a b (by omega), h3 j k2 k2 a c c,
      h3 j k k a b b, h3 j j k a a b, h3 j j k2 a a c]
    exact h.mixed j k k2 hj hk
  · obtain ⟨a, b⟩ := l2 k k2 hk
    obtain ⟨c, d⟩ := l2 j j2 hj
    rw [hz k j 2 a c (by omega), hz k2 j2 2 b d (by omega), hz k2 j 2 b c (by omega), hz k j2 2 a d (by omega),
      hz k2 j2 1 b d (by omega), hz k j 1 a c (by omega), hz k j2 1 a d (by omega), hz k j 0 a c (by omega), hz k2 j 1 b c (by omega)]
    exact h.pairs k k2 j j2 hk hj hne
  · obtain ⟨a, b⟩ := l2 k k2 hk
    obtain ⟨c, d⟩ := l2 j j2 hj
    rw [h3 k k j2 a a d, h3 k2 k2 j2 b b d, h3 k2 k2 j b b c, h3 k k j a a c]
    exact h.cubics k k2 j j2 hk hj

theorem f3Of_symm (f : F3qcm ℝ) (i j k : Nat) : f3Of f i j k = f3Of f j i k ∧ f3Of f i j k = f3Of f i k j := by
  unfold f3Of F3qcm.get
  exact ⟨by rw [find3_perm (List.Perm.swap j i [k])], by rw [find3_perm (List.Perm.cons i (List.Perm.swap k j []))]⟩

theorem makeZmat_anti (nvib natom : Nat) (lxm : Mat ℝ) (k l a : Nat) :
    makeZmat nvib natom lxm k l a = -makeZmat nvib natom lxm l k a := by
  have l0 : (Arith.lit 0 : ℝ) = 0 := by rw [lit_real]; norm_num
  by_cases hkl : k < nvib ∧ l < nvib
  · by_cases ha : a < 3
    · exact (c15_antisymmetric _ _ _ _ _ _ hkl.1 hkl.2 ha).1
    · unfold makeZmat
      simp only [if_neg (show a ≠ 0 by omega), if_neg (show a ≠ 1 by omega), if_neg (show a ≠ 2 by omega), l0, ite_self, neg_zero]
  · unfold makeZmat
    rw [if_neg hkl, if_neg (fun h => hkl ⟨h.2, h.1⟩), l0, neg_zero]

theorem inertiaField_symm (natom : Nat) (pos : Nat → Nat → ℝ) (wt : Nat → ℝ) (lxm : List (List ℝ)) (k a b : Nat) :
    inertiaField natom pos wt lxm k a b = inertiaField natom pos wt lxm k b a := by
  unfold inertiaField
  by_cases hab : a = b
  · rw [hab]
  · rw [if_neg hab, if_neg (Ne.symm hab), min_comm, max_comm]

/-- The rotational constants of a completed run come from the averaged ones and the quartic distortion constants. -/
theorem finish_rots {ι : Type} {s : SpectroIn ℝ} {o : Oracles ℝ ι} {freq : List ℝ} {f3 : T3 ℝ} {f4 : T4 ℝ} {irreps : List ι}
    {lxm lx : Mat ℝ} {q : Output ℝ ι} (hr : s.rotor.isSymTop = true) (hr' : s.rotor ≠ .sphericalTop)
    (h : finish s o freq f3 f4 irreps lxm lx = some q) :
    ∃ R, Quartic.new s.rotor s.nvib s.rotcon s.primat (vecOf freq) (wilsonA s.nvib s.natom s.pos lxm s.weights) = some q.quartic ∧
      alphas s.rotor s.rotcon s.primat (vecOf freq) (wilsonA s.nvib s.natom s.pos lxm s.weights)
        (makeZmat s.nvib s.natom lxm) f3 q.resonances.modes q.resonances.states q.resonances.coriolis = some R ∧
      rots s.rotor q.resonances.states.length s.rotcon R q.resonances.states q.quartic = some q.rots := by
  unfold finish at h
  simp only [Option.bind_eq_bind, Option.bind_eq_some_iff] at h
  obtain ⟨qu, hqu, r, -, x, -, hf, -, zc, -, rt, hrt, v, -, v', -, hq⟩ := h
  obtain rfl := Option.some.inj hq
  rw [finishRots, if_pos (by simp [hr])] at hrt
  simp only [Option.bind_eq_bind, Option.bind_eq_some_iff, if_neg hr'] at hrt
  obtain ⟨R, h1, h2⟩ := hrt
  exact ⟨R, hqu, h1, h2⟩

/-- A reported state is one of the states, and has its number. -/
theorem reported_get {P : State → Bool} {n : Nat} {states : List State} {p : Nat × State}
    (h : p ∈ reported P n states) : states[p.1]? = some p.2 := by
  unfold reported at h
  obtain ⟨h, -⟩ := List.mem_filter.1 h
  obtain ⟨k, -, h⟩ := List.mem_filterMap.1 h
  rw [Option.map_eq_some_iff] at h
  obtain ⟨st, h1, rfl⟩ := h
  exact h1

end Verif
