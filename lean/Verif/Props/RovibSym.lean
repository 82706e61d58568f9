import Verif.Props.Rovib
import Verif.Props.AlphaSym
import Verif.Lemmas.RovibPairExist

/-!
# The rotational constants of symmetric tops solve the Schrödinger equation of vibration and rotation (C110)
-/

namespace Verif

open Finset Osc

/-- `n` and `n'` are the quanta of two states which the code lists as one: they agree in the non-degenerate modes and
exchange the quanta of the components of the degenerate ones. -/
structure Components (modes : List Mode) (s : State) (n n' : Nat → Nat) : Prop where
  single : ∀ q (h : q < (nonDeg modes).length), n (nonDeg modes)[q] = (s.occ (1, q)).1 ∧
    n' (nonDeg modes)[q] = (s.occ (1, q)).1
  pair : ∀ q (h : q < (degPairs modes).length),
    n (degPairs modes)[q].1 + n (degPairs modes)[q].2 = (s.occ (2, q)).1 ∧
    n' (degPairs modes)[q].1 = n (degPairs modes)[q].2 ∧ n' (degPairs modes)[q].2 = n (degPairs modes)[q].1

theorem modeNumbers_sum {modes : List Mode} {N : Nat} (hm : (modeNumbers modes).Perm (List.range N)) (g : Nat → ℝ) :
    ∑ i ∈ range N, g i = ((nonDeg modes).map g).sum + ((degPairs modes).map fun q => g q.1 + g q.2).sum := by
  rw [← sum_modeNumbers, (hm.map g).sum_eq, sum_list_range]

theorem mem_modeNumbers_pair {modes : List Mode} {k k2 : Nat} (h : .i2 k k2 ∈ modes) :
    k ∈ modeNumbers modes ∧ k2 ∈ modeNumbers modes := by
  unfold modeNumbers
  rw [List.mem_flatMap, List.mem_flatMap]
  exact ⟨⟨_, h, by simp⟩, ⟨_, h, by simp⟩⟩

theorem mem_modeNumbers_single {modes : List Mode} {k : Nat} (h : .i1 k ∈ modes) : k ∈ modeNumbers modes := by
  unfold modeNumbers
  rw [List.mem_flatMap]
  exact ⟨_, h, by simp⟩

theorem pair_distinct {modes : List Mode} (hd : (modeNumbers modes).Nodup) {k k2 : Nat} (h : .i2 k k2 ∈ modes) : k ≠ k2 := by
  unfold modeNumbers at hd
  have := (List.nodup_flatMap.1 hd).1 _ h
  simpa using this

theorem pair_index {modes : List Mode} (nd : (modeNumbers modes).Nodup) {k k2 i i2 : Nat} (h : .i2 k k2 ∈ modes)
    (h' : .i2 i i2 ∈ modes) : (i = k → i2 = k2) ∧ (i2 = k2 → i = k) ∧ i2 ≠ k := by
  have dm := distinct_of_modes modes nd
  unfold DistinctModes at dm
  obtain ⟨d1, d2, d3⟩ := List.nodup_append.1 dm
  obtain ⟨-, d5, -⟩ := List.nodup_append.1 d1
  have m1 : (k, k2) ∈ degPairs modes := mem_degPairs.2 h
  have m2 : (i, i2) ∈ degPairs modes := mem_degPairs.2 h'
  refine ⟨fun e => ?_, fun e => ?_, fun e => ?_⟩
  · exact congrArg Prod.snd (List.inj_on_of_nodup_map d5 m2 m1 e)
  · exact congrArg Prod.fst (List.inj_on_of_nodup_map d2 m2 m1 e)
  · exact d3 _ (List.mem_append_right _ (List.mem_map.2 ⟨_, m1, rfl⟩)) _ (List.mem_map.2 ⟨_, m2, rfl⟩) e.symm

/-- The formula for a molecule without symmetry, without the Coriolis term of the partner, whose frequency is the same. -/
theorem general_alphaSpec {modes : List Mode} {N : Nat} (hm : (modeNumbers modes).Perm (List.range N)) (D : VibRot)
    (skip : Option Nat) (k x : Nat) (hk : k < N) (hs : ∀ k2, skip = some k2 → k2 < N ∧ k2 ≠ k ∧ D.w k2 = D.w k) :
    D.general [0, 1, 2] (modeNumbers modes) skip k x = alphaSpec (fun _ _ _ => False) N D.B D.I D.w D.A D.zeta D.F k x := by
  have lst : ∀ g : Nat → ℝ, ((modeNumbers modes).map g).sum = ∑ i ∈ range N, g i := fun g => by
    rw [(hm.map g).sum_eq, sum_list_range]
  unfold VibRot.general VibRot.cubicTerm alphaSpec
  rw [lst]
  congr 1
  congr 1
  congr 1
  · have e : (((modeNumbers modes).filter fun j => j ≠ k ∧ some j ≠ skip).map fun j =>
        rotationTerm (D.zeta k j x) (D.w k) (D.w j)).sum =
        ((modeNumbers modes).map fun j => if j ≠ k ∧ some j ≠ skip then rotationTerm (D.zeta k j x) (D.w k) (D.w j)
          else 0).sum := sum_filter_ite _ (fun j => j ≠ k ∧ some j ≠ skip) _
    rw [e, lst, ← sum_erase_add _ _ (mem_range.2 hk)]
    rw [if_neg (by simp), add_zero]
    refine sum_congr rfl fun j hj => ?_
    have hj' := (mem_erase.1 hj).1
    rw [if_neg (fun h => h)]
    by_cases h : some j = skip
    · obtain ⟨-, -, h3⟩ := hs j h.symm
      rw [if_neg (fun hh => hh.2 h)]
      unfold rotationTerm
      rw [h3, sub_self, div_zero]
    · rw [if_pos ⟨hj', h⟩]

/-- What the code reports for a state is the mean over its components of the sum over all vibrations. -/
theorem averaged_mean {modes : List Mode} {N : Nat} (hm : (modeNumbers modes).Perm (List.range N)) (B : Nat → ℝ)
    (al : Nat → Nat → ℝ) (g : Nat → ℝ) (x : Nat) (h1 : ∀ k, .i1 k ∈ modes → al k x = g k)
    (h2 : ∀ k k2, .i2 k k2 ∈ modes → al k x = (g k + g k2) / 2) {s : State} {n n' : Nat → Nat} (hn : Components modes s n n') :
    averagedSpec B al (nonDeg modes) (degPairs modes) s.occ x =
      B x + ∑ i ∈ range N, g i * (((n i : ℝ) + n' i) / 2 + 1 / 2) := by
  rw [modeNumbers_sum hm]
  unfold averagedSpec
  rw [add_assoc]
  congr 1
  congr 1
  · rw [← map_getD_range (nonDeg modes) 0, sum_list_range]
    refine sum_congr rfl fun q hq => ?_
    have hq := mem_range.1 hq
    have e : (nonDeg modes).getD q 0 = (nonDeg modes)[q] := by
      rw [List.getD_eq_getElem?_getD, List.getElem?_eq_getElem hq, Option.getD_some]
    have mem : .i1 (nonDeg modes)[q] ∈ modes := mem_nonDeg.1 (List.getElem_mem hq)
    rw [e, h1 _ mem, (hn.single q hq).1, (hn.single q hq).2]
    ring
  · rw [← map_getD_range (degPairs modes) (0, 0), sum_list_range]
    refine sum_congr rfl fun q hq => ?_
    have hq := mem_range.1 hq
    have e : (degPairs modes).getD q (0, 0) = (degPairs modes)[q] := by
      rw [List.getD_eq_getElem?_getD, List.getElem?_eq_getElem hq, Option.getD_some]
    have mem : .i2 (degPairs modes)[q].1 (degPairs modes)[q].2 ∈ modes := mem_degPairs.1 (List.getElem_mem hq)
    obtain ⟨a, b, c⟩ := hn.pair q hq
    rw [e, h2 _ _ mem, b, c, ← a]
    push_cast
    ring

/-- The energy which rotation about axis `x` adds, from the formula for the second-order energy. -/
theorem rotForm_difference {N : Nat} {κ : ℝ} {I : Nat → ℝ} {A : Nat → Nat → Nat → ℝ} {w : Nat → ℝ} {φ : Nat → Nat → Nat → ℝ}
    {ψ : Nat → Nat → Nat → Nat → ℝ} {ζ : Nat → Nat → Nat → ℝ} (hκ : 0 < κ) (hp : ∀ i < N, 0 < w i)
    (hA : ∀ k a b, A k a b = A k b a) (n : Nat → Nat) {x : Nat} (hx : x < 3) (j : ℝ) :
    rotForm N κ I A w φ ψ ζ (about x j) n - rotForm N κ I A w φ ψ ζ (about x 0) n =
      (κ / I x + ∑ k ∈ range N, (alphaSpec (fun _ _ _ => False) N (fun a => κ / I a) I w A ζ φ k x +
        roundedPart N κ I w A φ k x) * ((n k : ℝ) + 1 / 2)) * j ^ 2 +
      8 * κ ^ 3 / 38333.84078 * (1 / 4 * tauSpec N w I A x x x x) * j ^ 4 := by
  rw [← rotSecond_diag hκ hp hA]
  unfold rotForm
  rw [about_sum _ _ hx, about_sum _ _ hx]
  have t1 := tau_energy N κ I w A (about x j)
  have t0 := tau_energy N κ I w A (about x 0)
  have s4 : ∀ j, ∑ a ∈ range 3, ∑ b ∈ range 3, ∑ c ∈ range 3, ∑ d ∈ range 3,
      tauSpec N w I A a b c d * about x j a * about x j b * about x j c * about x j d = tauSpec N w I A x x x x * j ^ 4 := by
    intro j
    unfold about
    interval_cases x <;> simp <;> ring
  rw [s4] at t1 t0
  linear_combination t1 - t0

/-- The reported constants in terms of the formula for a molecule without symmetry. -/
theorem reported_mean (r : Rotor) (hr : r ≠ .linear) (hr' : r ≠ .sphericalTop) (modes : List Mode) (N i2vib : Nat)
    (t : StateTab) (ht : newStates N i2vib modes = some t) (hm : (modeNumbers modes).Perm (List.range N))
    (B I w : Vec ℝ) (wila : Mat ℝ) (ζ φ : T3 ℝ)
    (hD : (vibRot B I w wila ζ φ).Axial modes (fun _ => 1) (planeAxis r) (1 - planeAxis r)) :
    ∃ R, alphas r B I w wila ζ φ modes t.states [] = some R ∧
      ∀ p s, t.states[p]? = some s → ∀ n n', Components modes s n n' → ∀ x, (x = 1 ∨ x = 2) →
        R p x = B x + ∑ i ∈ range N,
          alphaSpec (fun _ _ _ => False) N B I w (fun k a b => wila k (pairIdx a b)) ζ φ i x * (((n i : ℝ) + n' i) / 2 + 1 / 2) := by
  have nd : (modeNumbers modes).Nodup := hm.nodup_iff.2 List.nodup_range
  have lt : ∀ k, k ∈ modeNumbers modes → k < N := fun k hk => List.mem_range.1 (hm.mem_iff.1 hk)
  obtain ⟨R, hR, hv⟩ := c83_averaged r hr' modes N i2vib t ht B I w wila ζ φ []
  refine ⟨R, hR, fun p s hs n n' hn x hx => ?_⟩
  obtain ⟨c1, c2⟩ := c83_average_partial r hr modes nd B I w wila ζ φ hD x hx
  set al := makeAlpha (symIn r modes B I w wila ζ φ []) with hal
  set g := fun k => alphaSpec (fun _ _ _ => False) N B I w (fun k a b => wila k (pairIdx a b)) ζ φ k x with hg
  have ne : ∀ k k2, .i2 k k2 ∈ modes → k ≠ k2 := fun k k2 h => pair_distinct nd h
  have weq : ∀ k k2, .i2 k k2 ∈ modes → w k2 = w k := fun k k2 h => (hD.pair k k2 h).1
  have e1 : ∀ k, .i1 k ∈ modes → al k x = g k := by
    intro k hk
    rw [c1 k hk, general_alphaSpec hm _ _ _ _ (lt k (mem_modeNumbers_single hk)) (by simp)]
  have e2 : ∀ k k2, .i2 k k2 ∈ modes → al k x = (g k + g k2) / 2 := by
    intro k k2 hk
    obtain ⟨m1, m2⟩ := mem_modeNumbers_pair hk
    rw [c2 k k2 hk, VibRot.pairAverage,
      general_alphaSpec hm _ _ _ _ (lt k m1) (by
        rintro _ ⟨⟩
        exact ⟨lt k2 m2, (ne k k2 hk).symm, weq k k2 hk⟩),
      general_alphaSpec hm _ _ _ _ (lt k2 m2) (by
        rintro _ ⟨⟩
        exact ⟨lt k m1, ne k k2 hk, (weq k k2 hk).symm⟩)]
  have hRx : R p x = averagedSpec B al (nonDeg modes) (degPairs modes) s.occ x := by
    obtain ⟨a, b, -⟩ := hv p s hs
    rcases hx with rfl | rfl
    · exact a
    · rw [b, if_neg hr]
  rw [hRx, averaged_mean hm _ al g x e1 e2 hn]

theorem alphaSpec_axis {R : Nat → Nat → Nat → Prop} {N : Nat} {B B' I w : Nat → ℝ} {A ζ φ : Nat → Nat → Nat → ℝ} {i x : Nat}
    (h : B x = B' x) : alphaSpec R N B I w A ζ φ i x = alphaSpec R N B' I w A ζ φ i x := by
  unfold alphaSpec
  rw [h]

/-- The energy which rotation about axis `x` adds to two states listed as one, on average. -/
theorem levels_mean {modes : List Mode} {N : Nat} {κ : ℝ} {I w : Nat → ℝ} {A : Nat → Nat → Nat → ℝ} {ζ φ : Nat → Nat → Nat → ℝ}
    {ψ : Nat → Nat → Nat → Nat → ℝ} (hκ : 0 < κ) (h3 : Symm3 N φ) (h4 : Symm4 N ψ)
    (hz : ∀ a k l, k < N → l < N → ζ k l a = -ζ l k a) (hA : ∀ k a b, A k a b = A k b a) (hp : ∀ i < N, 0 < w i)
    (hw : NoResonance N w) (hd : ∀ i j, i < N → j < N → i ≠ j → w i = w j → .i2 i j ∈ modes ∨ .i2 j i ∈ modes)
    {s : State} {n n' : Nat → Nat} (hn : Components modes s n n') {x : Nat} (hx3 : x < 3)
    (hζ : ∀ k k2, .i2 k k2 ∈ modes → ζ k k2 x = 0 ∨ (n k = 0 ∧ n k2 = 0)) :
    let level := fun (n : Nat → Nat) (J : Nat → ℝ) (e : ℝ) => ∃ E0 E1 E2, e = E0 + E1 + E2 ∧
      RotEnergy κ I A w φ ψ ζ J (fun i : Fin N => n i) E0 E1 E2
    ∀ j E E' G G',
        level n (about x j) E → level n' (about x j) E' → level n (about x 0) G → level n' (about x 0) G' →
        ((E - G) + (E' - G')) / 2 =
          (κ / I x + ∑ i ∈ range N, alphaSpec (fun _ _ _ => False) N (fun a => κ / I a) I w A ζ φ i x *
            (((n i : ℝ) + n' i) / 2 + 1 / 2) +
            ∑ i ∈ range N, roundedPart N κ I w A φ i x * (((n i : ℝ) + n' i) / 2 + 1 / 2)) * j ^ 2 +
          8 * κ ^ 3 / 38333.84078 * (1 / 4 * tauSpec N w I A x x x x) * j ^ 4 := by
  intro level j E E' G G' hE hE' hG hG'
  set g := fun k => alphaSpec (fun _ _ _ => False) N (fun a => κ / I a) I w A ζ φ k x with hg
  have ap : ∀ J, (∀ a, a ≠ x → J a = 0) → ∀ v : Nat → Nat, (v = n ∨ v = n') → ApartN N κ I w ζ J v := by
    intro J hJ v hv i l hi hl hil
    by_cases h : w i = w l
    · right
      have key : ∀ k k2, .i2 k k2 ∈ modes → ζ k k2 x = 0 ∨ (v k = 0 ∧ v k2 = 0) := by
        intro k k2 hk
        rcases hv with rfl | rfl
        · exact hζ k k2 hk
        · rcases hζ k k2 hk with h | h
          · exact .inl h
          · obtain ⟨q, hq, e⟩ := List.mem_iff_getElem.1 (mem_degPairs.2 (show .i2 (k, k2).1 (k, k2).2 ∈ modes from hk))
            obtain ⟨-, a, b⟩ := hn.pair q hq
            rw [e] at a b
            exact .inr ⟨a.trans h.2, b.trans h.1⟩
      have sm : ζ i l x = 0 → ∑ a ∈ range 3, 2 * (κ / I a) * J a * ζ i l a = 0 := by
        intro h0
        refine sum_eq_zero fun a _ => ?_
        by_cases ha : a = x
        · rw [ha, h0, mul_zero]
        · rw [hJ a ha, mul_zero, zero_mul]
      rcases hd i l hi hl hil h with hk | hk
      · rcases key i l hk with h | h
        · exact .inl (sm h)
        · exact .inr h
      · rcases key l i hk with h | h
        · exact .inl (sm (by rw [hz x i l hi hl, h, neg_zero]))
        · exact .inr ⟨h.2, h.1⟩
    · exact .inl h
  have ab : ∀ j a, a ≠ x → about x j a = 0 := fun j a ha => if_neg ha
  have val : ∀ v j E, (v = n ∨ v = n') → level v (about x j) E →
      E = ∑ i ∈ range N, w i * ((v i : ℝ) + 1 / 2) + rotForm N κ I A w φ ψ ζ (about x j) v := by
    rintro v j E hv ⟨E0, E1, E2, rfl, h⟩
    obtain ⟨a0, a1, a2⟩ := rot_formula (n := v) hκ.le h3 h4 hz hp hw (ap _ (ab j) v hv) h
    rw [a0, a1, a2, rotForm]
    ring
  rw [val n j E (.inl rfl) hE, val n' j E' (.inr rfl) hE', val n 0 G (.inl rfl) hG, val n' 0 G' (.inr rfl) hG']
  have d1 := rotForm_difference (φ := φ) (ψ := ψ) (ζ := ζ) (I := I) hκ hp hA n hx3 j
  have d2 := rotForm_difference (φ := φ) (ψ := ψ) (ζ := ζ) (I := I) hκ hp hA n' hx3 j
  have mean : (∑ k ∈ range N, (g k + roundedPart N κ I w A φ k x) * ((n k : ℝ) + 1 / 2) +
      ∑ k ∈ range N, (g k + roundedPart N κ I w A φ k x) * ((n' k : ℝ) + 1 / 2)) / 2 =
      ∑ i ∈ range N, g i * (((n i : ℝ) + n' i) / 2 + 1 / 2) +
        ∑ i ∈ range N, roundedPart N κ I w A φ i x * (((n i : ℝ) + n' i) / 2 + 1 / 2) := by
    rw [← sum_add_distrib, ← sum_add_distrib, sum_div]
    exact sum_congr rfl fun i _ => by ring
  linear_combination (d1 + d2) / 2 + mean * j ^ 2

/-- C110: let the data be those of a symmetric top with a three-fold or six-fold axis (see `c83_average_partial`), without
Coriolis resonance, the two components of each degenerate mode being the only vibrations with the same frequency, and let
the frequencies have no exact resonance. The rotational constant `R p x` reported for state `p` and axis `x` is the
coefficient of `j²` in the energy which the angular momentum `j` about this axis adds to the state, according to
perturbation theory of second order for Watson's Hamiltonian, averaged over the two states which the code lists as one
(`n` and `n'`; for the ground state and states without quanta in degenerate modes these are the same). The coefficient of
`j⁴` is a quarter of the distortion constant. The factor `0.086112` of the code and its conversion of the distortion
constants are rounded. Here the angular momentum must not couple the components of a degenerate mode that has quanta:
this is so for the perpendicular axes; see `c110_rotating_partial` for the unique axis. Missing: four-fold axes (see
`c83_fourfold_violated`), spherical tops. Linear molecules are the subject of `c110_linear`. -/
theorem c110_levels_partial (r : Rotor) (hr : r ≠ .linear) (hr' : r ≠ .sphericalTop) (modes : List Mode) (N i2vib : Nat)
    (t : StateTab) (ht : newStates N i2vib modes = some t) (hm : (modeNumbers modes).Perm (List.range N))
    (κ : ℝ) (B I w : Vec ℝ) (wila : Mat ℝ) (ζ φ : T3 ℝ) (ψ : T4 ℝ) (hκ : 0 < κ) (hB : ∀ a < 3, B a = κ / I a)
    (hD : (vibRot B I w wila ζ φ).Axial modes (fun _ => 1) (planeAxis r) (1 - planeAxis r))
    (h4 : Symm4 N ψ) (hp : ∀ i < N, 0 < w i) (hw : NoResonance N w)
    (hd : ∀ i j, i < N → j < N → i ≠ j → w i = w j → .i2 i j ∈ modes ∨ .i2 j i ∈ modes) :
    let A := fun k a b => wila k (pairIdx a b)
    let τ := makeTau N w I wila
    let level := fun (n : Nat → Nat) (J : Nat → ℝ) (e : ℝ) => ∃ E0 E1 E2, e = E0 + E1 + E2 ∧
      RotEnergy κ I A w φ ψ ζ J (fun i : Fin N => n i) E0 E1 E2
    ∃ R, alphas r B I w wila ζ φ modes t.states [] = some R ∧
      ∀ p s, t.states[p]? = some s → ∀ n n', Components modes s n n' → ∀ x, (x = 1 ∨ x = 2) →
        (∀ k k2, .i2 k k2 ∈ modes → ζ k k2 x = 0 ∨ (n k = 0 ∧ n k2 = 0)) → ∀ j E E' G G',
        level n (about x j) E → level n' (about x j) E' → level n (about x 0) G → level n' (about x 0) G' →
        ((E - G) + (E' - G')) / 2 =
          (R p x + ∑ i ∈ range N, roundedPart N κ I w A φ i x * (((n i : ℝ) + n' i) / 2 + 1 / 2)) * j ^ 2 +
          8 * κ ^ 3 / 38333.84078 * (1 / 4 * τ x x x x) * j ^ 4 := by
  intro A τ level
  obtain ⟨R, hR, hv⟩ := reported_mean r hr hr' modes N i2vib t ht hm B I w wila ζ φ hD
  refine ⟨R, hR, fun p s hs n n' hn x hx hζ j E E' G G' hE hE' hG hG' => ?_⟩
  have hx3 : x < 3 := by omega
  have h3 : Symm3 N φ := fun i j k _ _ _ => hD.cubic i j k
  have hz : ∀ a k l, k < N → l < N → ζ k l a = -ζ l k a := fun a k l _ _ => hD.anti k l a
  have hA : ∀ k a b, A k a b = A k b a := hD.tensor
  have hτ : τ x x x x = tauSpec N w I A x x x x := c44_value _ _ _ _ _ _ _ _
  simp only [hv p s hs n n' hn x hx, alphaSpec_axis (B := B) (B' := fun a => κ / I a) (hB x hx3), hB x hx3]
  rw [hτ]
  exact levels_mean hκ h3 h4 hz hA hp hw hd hn hx3 hζ j E E' G G' hE hE' hG hG'

/-- The states `|k⟩` and `|k2⟩` of a degenerate mode are listed as one. -/
theorem components_pair {modes : List Mode} (nd : (modeNumbers modes).Nodup) {N q : Nat} (hq : q < (degPairs modes).length)
    (hN : q < N) :
    Components modes (.i2st ((List.replicate N (0, 0)).set q (1, 1))) (single (degPairs modes)[q].1)
      (single (degPairs modes)[q].2) := by
  have dm := distinct_of_modes modes nd
  unfold DistinctModes at dm
  obtain ⟨d1, d2, d3⟩ := List.nodup_append.1 dm
  obtain ⟨d4, d5, d6⟩ := List.nodup_append.1 d1
  have occ : ∀ p, State.occ (.i2st ((List.replicate N (0, 0)).set q (1, 1))) (2, p) = if p = q then (1, 1) else (0, 0) := by
    intro p
    show ((List.replicate N (0, 0)).set q (1, 1)).getD p (0, 0) = _
    exact getD_set_rep _ _ _ _ _ hN
  have fst : ∀ p (h : p < (degPairs modes).length), (degPairs modes)[p].1 = (degPairs modes)[q].1 ↔ p = q := by
    intro p h
    have := d5.getElem_inj_iff (i := p) (j := q) (hi := by simpa using h) (hj := by simpa using hq)
    simpa using this
  have snd : ∀ p (h : p < (degPairs modes).length), (degPairs modes)[p].2 = (degPairs modes)[q].2 ↔ p = q := by
    intro p h
    have := d2.getElem_inj_iff (i := p) (j := q) (hi := by simpa using h) (hj := by simpa using hq)
    simpa using this
  have mix : ∀ p p' (h : p < (degPairs modes).length) (h' : p' < (degPairs modes).length),
      (degPairs modes)[p].1 ≠ (degPairs modes)[p'].2 := by
    intro p p' h h'
    exact d3 _ (List.mem_append_right _ (List.mem_map.2 ⟨_, List.getElem_mem h, rfl⟩)) _
      (List.mem_map.2 ⟨_, List.getElem_mem h', rfl⟩)
  have ns1 : ∀ p (h : p < (nonDeg modes).length), (nonDeg modes)[p] ≠ (degPairs modes)[q].1 := fun p h =>
    d6 _ (List.getElem_mem h) _ (List.mem_map.2 ⟨_, List.getElem_mem hq, rfl⟩)
  have ns2 : ∀ p (h : p < (nonDeg modes).length), (nonDeg modes)[p] ≠ (degPairs modes)[q].2 := fun p h =>
    d3 _ (List.mem_append_left _ (List.getElem_mem h)) _ (List.mem_map.2 ⟨_, List.getElem_mem hq, rfl⟩)
  refine ⟨fun p h => ⟨?_, ?_⟩, fun p h => ?_⟩
  · rw [single, if_neg (ns1 p h)]; rfl
  · rw [single, if_neg (ns2 p h)]; rfl
  · rw [occ]
    simp only [single, fst p h, snd p h, (mix p q h hq), (mix q p hq h).symm, if_false, add_zero, and_true]
    split_ifs <;> simp

/-- C110, degenerate modes and the unique axis: with the hypotheses of `c110_levels_partial`, let a degenerate mode have one
quantum. Angular momentum `j` about the unique axis mixes its components; the states which belong to definite energies are
`|k⟩ ± i |k2⟩`, and their energies are split in first order, by the Coriolis constant of the mode. In second order the
energy rises by `R j²`, with the reported constant `R` of the mode. (For the perpendicular axis the same is true of the
mean of the two components.) -/
theorem c110_rotating_partial (r : Rotor) (hr : r ≠ .linear) (hr' : r ≠ .sphericalTop) (modes : List Mode) (N i2vib : Nat)
    (t : StateTab) (ht : newStates N i2vib modes = some t) (hm : (modeNumbers modes).Perm (List.range N))
    (κ : ℝ) (B I w : Vec ℝ) (wila : Mat ℝ) (ζ φ : T3 ℝ) (ψ : T4 ℝ) (hκ : 0 < κ) (hB : ∀ a < 3, B a = κ / I a)
    (hD : (vibRot B I w wila ζ φ).Axial modes (fun _ => 1) (planeAxis r) (1 - planeAxis r))
    (h4 : Symm4 N ψ) (hp : ∀ i < N, 0 < w i) (hw : NoResonance N w)
    (hd : ∀ i j, i < N → j < N → i ≠ j → w i = w j → .i2 i j ∈ modes ∨ .i2 j i ∈ modes) :
    let A := fun k a b => wila k (pairIdx a b)
    let τ := makeTau N w I wila
    ∃ R, alphas r B I w wila ζ φ modes t.states [] = some R ∧
      ∀ q (h : q < (degPairs modes).length), let k := (degPairs modes)[q].1; let k2 := (degPairs modes)[q].2
        ∀ σ : ℝ, σ ^ 2 = 1 → ∀ x, (x = 1 ∨ x = 2) → ∀ j E0 E1 E2 G0 G1 G2,
        RotPairEnergy κ I A w φ ψ ζ (about x j) (fun i : Fin N => if i = k then 1 else 0)
          (fun i : Fin N => if i = k2 then 1 else 0) σ E0 E1 E2 →
        RotPairEnergy κ I A w φ ψ ζ (about x 0) (fun i : Fin N => if i = k then 1 else 0)
          (fun i : Fin N => if i = k2 then 1 else 0) σ G0 G1 G2 →
        E0 = G0 ∧ G1 = 0 ∧ E1 = -(σ * (2 * (κ / I x) * ζ k k2 x)) * j ∧
        E2 - G2 = (R ((nonDeg modes).length + q + 1) x + (∑ i ∈ range N, roundedPart N κ I w A φ i x / 2 +
            (roundedPart N κ I w A φ k x + roundedPart N κ I w A φ k2 x) / 2)) * j ^ 2 +
          8 * κ ^ 3 / 38333.84078 * (1 / 4 * τ x x x x) * j ^ 4 := by
  intro A τ
  obtain ⟨R, hR, hv⟩ := reported_mean r hr hr' modes N i2vib t ht hm B I w wila ζ φ hD
  refine ⟨R, hR, fun q h => ?_⟩
  intro k k2 σ hσ x hx j E0 E1 E2 G0 G1 G2 hE hG
  have hx3 : x < 3 := by omega
  have nd : (modeNumbers modes).Nodup := hm.nodup_iff.2 List.nodup_range
  have lt : ∀ k, k ∈ modeNumbers modes → k < N := fun k hk => List.mem_range.1 (hm.mem_iff.1 hk)
  have mem : .i2 k k2 ∈ modes := mem_degPairs.1 (List.getElem_mem h)
  have hk := lt k (mem_modeNumbers_pair mem).1
  have hk2 := lt k2 (mem_modeNumbers_pair mem).2
  have hne := pair_distinct nd mem
  have h3 : Symm3 N φ := fun i j k _ _ _ => hD.cubic i j k
  have hz : ∀ a k l, k < N → l < N → ζ k l a = -ζ l k a := fun a k l _ _ => hD.anti k l a
  have hA : ∀ k a b, A k a b = A k b a := hD.tensor
  have he : w k = w k2 := ((hD.pair k k2 mem).1).symm
  have hd' : ∀ i < N, w i = w k → i = k ∨ i = k2 := by
    intro i hi e
    by_cases hik : i = k
    · exact .inl hik
    · rcases hd i k hi hk hik e with hh | hh
      · exact absurd rfl (pair_index nd mem hh).2.2
      · exact .inr ((pair_index nd mem hh).1 rfl)
  obtain ⟨-, -, s2⟩ := states_first ht
  rw [part_nonDeg, part_degPairs] at s2
  have st := s2 q h
  have hRx := hv _ _ st.1 _ _ (components_pair nd h st.2) x hx
  obtain ⟨e0, e1, e2⟩ := pair_formula hκ.le h3 h4 hz hp hw hk hk2 hne he hd' hσ hE
  obtain ⟨g0, g1, g2⟩ := pair_formula hκ.le h3 h4 hz hp hw hk hk2 hne he hd' hσ hG
  have s1 : ∀ j, ∑ a ∈ range 3, 2 * (κ / I a) * about x j a * ζ k k2 a = 2 * (κ / I x) * j * ζ k k2 x := by
    intro j
    unfold about
    interval_cases x <;> simp [sum_range_succ]
  refine ⟨e0.trans g0.symm, ?_, ?_, ?_⟩
  · rw [g1, s1]; ring
  · rw [e1, s1]; ring
  · have d1 := rotForm_difference (φ := φ) (ψ := ψ) (ζ := ζ) (I := I) hκ hp hA (single k) hx3 j
    have d2 := rotForm_difference (φ := φ) (ψ := ψ) (ζ := ζ) (I := I) hκ hp hA (single k2) hx3 j
    have hτ : τ x x x x = tauSpec N w I A x x x x := c44_value _ _ _ _ _ _ _ _
    set g := fun k => alphaSpec (fun _ _ _ => False) N (fun a => κ / I a) I w A ζ φ k x with hg
    have mean : (∑ i ∈ range N, (g i + roundedPart N κ I w A φ i x) * ((single k i : ℝ) + 1 / 2) +
        ∑ i ∈ range N, (g i + roundedPart N κ I w A φ i x) * ((single k2 i : ℝ) + 1 / 2)) / 2 =
        ∑ i ∈ range N, g i * (((single k i : ℝ) + single k2 i) / 2 + 1 / 2) +
          ∑ i ∈ range N, roundedPart N κ I w A φ i x * (((single k i : ℝ) + single k2 i) / 2 + 1 / 2) := by
      rw [← sum_add_distrib, ← sum_add_distrib, sum_div]
      exact sum_congr rfl fun i _ => by ring
    have pt : ∀ v < N, ∑ i ∈ range N, roundedPart N κ I w A φ i x * (single v i : ℝ) = roundedPart N κ I w A φ v x := by
      intro v hv
      rw [sum_eq_single v]
      · simp [single]
      · intro b _ hb
        simp [single, hb]
      · intro hh
        exact absurd (mem_range.2 hv) hh
    have rp : ∑ i ∈ range N, roundedPart N κ I w A φ i x * (((single k i : ℝ) + single k2 i) / 2 + 1 / 2) =
        ∑ i ∈ range N, roundedPart N κ I w A φ i x / 2 + (roundedPart N κ I w A φ k x + roundedPart N κ I w A φ k2 x) / 2 := by
      rw [← pt k hk, ← pt k2 hk2, ← sum_add_distrib, sum_div, ← sum_add_distrib]
      exact sum_congr rfl fun i _ => by ring
    simp only [alphaSpec_axis (B := B) (B' := fun a => κ / I a) (hB x hx3), hB x hx3] at hRx
    rw [hτ, e2, g2, hRx, ← rp]
    linear_combination (d1 + d2) / 2 + mean * j ^ 2

/-! ### An oblate top with one non-degenerate mode (0) and one degenerate mode (1, 2) -/

/-- Kind of a vibration: 0 for the non-degenerate one, 1 and 6 for the components of the degenerate one. -/
def oblKind (i : Nat) : Nat := if i = 0 then 0 else if i = 1 then 1 else if i = 2 then 6 else 100

noncomputable section

/-- Frequencies of the example. -/
def oblFreq : Vec ℝ := fun i => if i = 0 then 1000 else 1600

/-- Moments of inertia of the example. -/
def oblI : Vec ℝ := fun a => if a = 2 then 2 else 1

/-- Derivatives of the inertia tensor of the example. -/
def oblWila : Mat ℝ := fun i c =>
  if i = 0 then (if c = 0 ∨ c = 2 then 2 else if c = 5 then 3 else 0)
  else if i = 1 then (if c = 0 then 1 else if c = 2 then -1 else if c = 4 then 5 else 0)
  else if i = 2 then (if c = 1 then 1 else if c = 3 then 5 else 0) else 0

/-- Coriolis constants of the example. -/
def oblZeta : T3 ℝ := fun i j x => (if i < j then 1 else if j < i then -1 else 0) *
  (if oblKind i + oblKind j = 1 ∧ x = 0 ∨ oblKind i + oblKind j = 6 ∧ x = 1 then 1 / 3
    else if oblKind i + oblKind j = 7 ∧ x = 2 then 1 / 2 else 0)

/-- Cubic constants of the example. -/
def oblF3 : T3 ℝ := fun i j k =>
  let s := oblKind i + oblKind j + oblKind k
  if s = 0 then 30 else if s = 2 ∨ s = 12 then 20 else if s = 3 then 10 else if s = 13 then -10 else 0

/-- Quartic constants of the example. -/
def oblF4 : T4 ℝ := fun i j k l =>
  let s := oblKind i + oblKind j + oblKind k + oblKind l
  if s = 0 then 7 else if s = 2 ∨ s = 12 then 5 else if s = 4 ∨ s = 24 then 6 else if s = 14 then 2 else 0

end

/-- The second component is odd with respect to the plane of symmetry. -/
def oblOdd (i : Nat) : ZMod 2 := if i = 2 then 1 else 0

theorem oblKind_odd (i : Nat) : oblKind i = 0 ∧ oblOdd i = 0 ∨ oblKind i = 1 ∧ oblOdd i = 0 ∨
    oblKind i = 6 ∧ oblOdd i = 1 ∨ oblKind i = 100 ∧ oblOdd i = 0 := by
  unfold oblKind oblOdd
  split_ifs <;> simp_all

theorem obl_axial : (vibRot (fun a => 16 / oblI a) oblI oblFreq oblWila oblZeta oblF3).Axial [.i1 0, .i2 1 2] (fun _ => 1)
    (planeAxis .oblateSymmTop) (1 - planeAxis .oblateSymmTop) where
  inertia := by norm_num [oblI]
  anti := by
    intro i j x
    simp only [oblZeta]
    rw [Nat.add_comm (oblKind i)]
    split_ifs <;> first | omega | ring
  cubic := by
    intro i j k
    simp only [oblF3]
    rw [show oblKind j + oblKind i + oblKind k = oblKind i + oblKind j + oblKind k by omega,
      show oblKind i + oblKind k + oblKind j = oblKind i + oblKind j + oblKind k by omega]
    exact ⟨rfl, rfl⟩
  tensor := by
    intro i x y
    exact vibRot_tensor _ _ _ _ _ _ i x y
  single := by
    intro k hk
    simp at hk
    subst hk
    norm_num [oblWila, pairIdx, ioff]
  singles := by
    intro k j hk hj
    simp at hk hj
    subst hk hj
    norm_num [oblZeta]
  pair := by
    intro k k2 hk
    simp at hk
    obtain ⟨rfl, rfl⟩ := hk
    norm_num [oblWila, pairIdx, ioff, oblFreq, planeOblate]
  mixed := by
    intro j k k2 hj hk
    simp at hk hj
    obtain ⟨rfl, rfl⟩ := hk
    subst hj
    norm_num [oblZeta, oblKind, oblF3]
  pairs := by
    intro k k2 j j2 hk hj hne
    simp at hk hj
    obtain ⟨rfl, rfl⟩ := hk
    obtain ⟨rfl, rfl⟩ := hj
    exact absurd rfl hne
  cubics := by
    intro k k2 j j2 hk hj
    simp at hk hj
    obtain ⟨rfl, rfl⟩ := hk
    obtain ⟨rfl, rfl⟩ := hj
    norm_num [oblKind, oblF3]

theorem obl_symm4 : Symm4 3 oblF4 := by
  intro i j k l _ _ _ _
  simp only [oblF4]
  rw [show oblKind j + oblKind i + oblKind k + oblKind l = oblKind i + oblKind j + oblKind k + oblKind l by omega,
    show oblKind i + oblKind k + oblKind j + oblKind l = oblKind i + oblKind j + oblKind k + oblKind l by omega,
    show oblKind i + oblKind j + oblKind l + oblKind k = oblKind i + oblKind j + oblKind k + oblKind l by omega]
  exact ⟨rfl, rfl, rfl⟩

theorem oblFreq_pos (i : Nat) : 0 < oblFreq i := by
  unfold oblFreq
  split_ifs <;> norm_num

theorem oblFreq_noRes : NoResonance 3 oblFreq := by
  intro i j k _ _ _
  unfold oblFreq
  constructor <;> split_ifs <;> norm_num

/-- The states of the same energy as that with one quantum in mode 1. -/
theorem oblFreq_alone (m : Fin 3 → Nat) (h : level oblFreq (toInt m) = level oblFreq (unit (1 : Fin 3))) :
    toInt m = unit 1 ∨ toInt m = unit 2 := by
  unfold level at h
  simp only [Fin.sum_univ_three, toInt, oblFreq, unit] at h
  norm_num [Pi.single_apply] at h
  rw [if_neg (by decide)] at h
  have h' : 5 * m 0 + 8 * (m 1 + m 2) = 8 := by
    have : (5 * (m 0 : ℝ) + 8 * ((m 1 : ℝ) + m 2)) = 8 := by linarith
    exact_mod_cast this
  have h0 : m 0 = 0 := by omega
  rcases (by omega : m 1 = 1 ∧ m 2 = 0 ∨ m 1 = 0 ∧ m 2 = 1) with ⟨h1, h2⟩ | ⟨h1, h2⟩
  · left
    funext i
    fin_cases i <;> simp [toInt, unit, h0, h1, h2]
  · right
    funext i
    fin_cases i <;> simp [toInt, unit, h0, h1, h2]

theorem obl_c3 (i j l : Nat) (h : oblF3 i j l ≠ 0) : oblOdd i + oblOdd j + oblOdd l = 0 := by
  unfold oblF3 at h
  rcases oblKind_odd i with ⟨a, b⟩ | ⟨a, b⟩ | ⟨a, b⟩ | ⟨a, b⟩ <;>
    rcases oblKind_odd j with ⟨c, d⟩ | ⟨c, d⟩ | ⟨c, d⟩ | ⟨c, d⟩ <;>
      rcases oblKind_odd l with ⟨e, f⟩ | ⟨e, f⟩ | ⟨e, f⟩ | ⟨e, f⟩ <;>
        rw [a, c, e] at h <;> rw [b, d, f] <;> first | decide | exact absurd (by norm_num) h

theorem obl_c4 (i j l m : Nat) (h : oblF4 i j l m ≠ 0) : oblOdd i + oblOdd j + oblOdd l + oblOdd m = 0 := by
  unfold oblF4 at h
  rcases oblKind_odd i with ⟨a, b⟩ | ⟨a, b⟩ | ⟨a, b⟩ | ⟨a, b⟩ <;>
    rcases oblKind_odd j with ⟨c, d⟩ | ⟨c, d⟩ | ⟨c, d⟩ | ⟨c, d⟩ <;>
      rcases oblKind_odd l with ⟨e, f⟩ | ⟨e, f⟩ | ⟨e, f⟩ | ⟨e, f⟩ <;>
        rcases oblKind_odd m with ⟨g, g'⟩ | ⟨g, g'⟩ | ⟨g, g'⟩ | ⟨g, g'⟩ <;>
          rw [a, c, e, g] at h <;> rw [b, d, f, g'] <;> first | decide | exact absurd (by norm_num) h

theorem obl_z (i j a : Nat) (ha : a < 3) (h : oblZeta i j a ≠ 0) : oblOdd i + oblOdd j = if a = 0 then 0 else 1 := by
  have h := right_ne_zero_of_mul h
  rcases oblKind_odd i with ⟨p, b⟩ | ⟨p, b⟩ | ⟨p, b⟩ | ⟨p, b⟩ <;>
    rcases oblKind_odd j with ⟨c, d⟩ | ⟨c, d⟩ | ⟨c, d⟩ | ⟨c, d⟩ <;>
      rw [p, c] at h <;> rw [b, d] <;> interval_cases a <;> first | decide | exact absurd (by norm_num) h

/-- The example rotating about one of the axes 1 and 2. -/
theorem obl_mirror (x : Nat) (hx : x = 1 ∨ x = 2) (j : ℝ) :
    Mirror (N := 3) oblFreq oblF3
      (fun k => ∑ a ∈ range 3, ∑ b ∈ range 3, recip1 16 oblI oblFreq (fun k a b => oblWila k (pairIdx a b)) a b k *
        about x j a * about x j b) oblZeta (fun a => 2 * (16 / oblI a) * about x j a)
      (fun p => quartic oblF4 p + Osc.coriolis oblFreq oblZeta (fun a => 16 / oblI a) p +
        (∑ a ∈ range 3, 16 / oblI a * about x j a ^ 2) • p +
        quadratic (fun k l => ∑ a ∈ range 3, ∑ b ∈ range 3,
          recip2 16 oblI oblFreq (fun k a b => oblWila k (pairIdx a b)) a b k l * about x j a * about x j b) p)
      (fun p => ∑ b ∈ range 3, linear (fun k => 2 * ∑ a ∈ range 3,
        recip1 16 oblI oblFreq (fun k a b => oblWila k (pairIdx a b)) a b k * about x j a) (angular oblFreq oblZeta b p))
      (fun i => oblOdd i) 1 1 2 := by
  have hx3 : x < 3 := by omega
  refine mirror_of (o := oblOdd) (t := 1) (ta := fun a => if a = 0 then 0 else 1) (k := 1) (k2 := 2) (by norm_num) (by norm_num)
    (fun i _ => oblFreq_pos i) oblFreq_noRes (by norm_num) rfl ?_ oblFreq_alone (fun a k l _ _ => obl_axial.anti k l a)
    (by decide) obl_c3 obl_c4 obl_z ?_ ?_ ?_
  · intro i hi h
    interval_cases i <;> norm_num [oblFreq] at h <;> simp
  · intro i h
    rw [about_sum _ _ hx3] at h
    have h := left_ne_zero_of_mul h
    unfold recip1 at h
    have h := left_ne_zero_of_mul h
    unfold oblOdd
    split_ifs with e
    · subst e
      exact absurd (by rcases hx with rfl | rfl <;> norm_num [oblWila, pairIdx, ioff]) h
    · rfl
  · intro i l h
    rw [about_sum _ _ hx3] at h
    have h := left_ne_zero_of_mul h
    unfold recip2 at h
    have h := right_ne_zero_of_mul (left_ne_zero_of_mul h)
    by_contra hc
    apply h
    have key : ∀ y < 3, oblWila i (pairIdx x y) * oblWila l (pairIdx y x) = 0 := by
      intro y hy
      have cs : (i = 2 ∧ l ≠ 2) ∨ (i ≠ 2 ∧ l = 2) := by
        by_contra hh
        apply hc
        unfold oblOdd
        split_ifs <;> first | decide | exact absurd (by tauto) hh
      rcases cs with ⟨rfl, hl⟩ | ⟨hi, rfl⟩
      · by_cases l0 : l = 0
        · subst l0
          rcases hx with rfl | rfl <;> interval_cases y <;> norm_num [oblWila, pairIdx, ioff]
        · by_cases l1 : l = 1
          · subst l1
            rcases hx with rfl | rfl <;> interval_cases y <;> norm_num [oblWila, pairIdx, ioff]
          · rw [show oblWila l = fun _ => 0 by funext c; simp [oblWila, l0, l1, hl], mul_zero]
      · by_cases l0 : i = 0
        · subst l0
          rcases hx with rfl | rfl <;> interval_cases y <;> norm_num [oblWila, pairIdx, ioff]
        · by_cases l1 : i = 1
          · subst l1
            rcases hx with rfl | rfl <;> interval_cases y <;> norm_num [oblWila, pairIdx, ioff]
          · rw [show oblWila i = fun _ => 0 by funext c; simp [oblWila, l0, l1, hi], zero_mul]
    exact sum_eq_zero fun y hy => by rw [key y (mem_range.1 hy), zero_div]
  · intro i l h
    have e : ∑ a ∈ range 3, 2 * (16 / oblI a) * about x j a * oblZeta i l a = 2 * (16 / oblI x) * j * oblZeta i l x := by
      unfold about
      interval_cases x <;> simp [sum_range_succ]
    rw [e] at h
    have := obl_z i l x hx3 (right_ne_zero_of_mul h)
    rwa [if_neg (by omega)] at this

/-- The two components have the same energy if the angular momentum is about the unique axis. -/
theorem obl_equal (j : ℝ) :
    rotForm 3 16 oblI (fun k a b => oblWila k (pairIdx a b)) oblFreq oblF3 oblF4 oblZeta (about 2 j) (single 1) =
      rotForm 3 16 oblI (fun k a b => oblWila k (pairIdx a b)) oblFreq oblF3 oblF4 oblZeta (about 2 j) (single 2) := by
  have d : ∀ n, rotSecond 3 16 oblI (fun k a b => oblWila k (pairIdx a b)) oblFreq oblF3 oblZeta n 2 2 = _ := fun n =>
    rotSecond_diag (by norm_num) (fun i _ => oblFreq_pos i) obl_axial.tensor n 2
  have a12 : alphaSpec (fun _ _ _ => False) 3 (fun a => 16 / oblI a) oblI oblFreq (fun k a b => oblWila k (pairIdx a b)) oblZeta
      oblF3 1 2 = alphaSpec (fun _ _ _ => False) 3 (fun a => 16 / oblI a) oblI oblFreq (fun k a b => oblWila k (pairIdx a b))
      oblZeta oblF3 2 2 := by
    unfold alphaSpec
    rw [show (range 3).erase 1 = {0, 2} by decide, show (range 3).erase 2 = {0, 1} by decide]
    norm_num [sum_range_succ, oblWila, oblZeta, oblFreq, oblF3, oblKind, oblI, pairIdx, ioff, rotationTerm]
  have r12 : roundedPart 3 16 oblI oblFreq (fun k a b => oblWila k (pairIdx a b)) oblF3 1 2 =
      roundedPart 3 16 oblI oblFreq (fun k a b => oblWila k (pairIdx a b)) oblF3 2 2 := by
    unfold roundedPart
    norm_num [sum_range_succ, oblWila, oblFreq, oblF3, oblKind, oblI, pairIdx, ioff]
  have x11 : xSpec (fun _ _ _ => False) 3 oblFreq oblF3 oblF4 oblZeta (fun a => 16 / oblI a) 1 1 =
      xSpec (fun _ _ _ => False) 3 oblFreq oblF3 oblF4 oblZeta (fun a => 16 / oblI a) 2 2 := by
    unfold xSpec
    rw [if_pos rfl, if_pos rfl]
    unfold xkkSpec
    norm_num [sum_range_succ, oblFreq, oblF3, oblF4, oblKind]
  have x10 : xSpec (fun _ _ _ => False) 3 oblFreq oblF3 oblF4 oblZeta (fun a => 16 / oblI a) 1 0 =
      xSpec (fun _ _ _ => False) 3 oblFreq oblF3 oblF4 oblZeta (fun a => 16 / oblI a) 2 0 := by
    unfold xSpec
    rw [if_neg (by norm_num), if_neg (by norm_num)]
    unfold xklSpec
    norm_num [sum_range_succ, oblFreq, oblF3, oblF4, oblKind, oblZeta, oblI]
  unfold rotForm
  rw [about_sum _ _ (by norm_num), about_sum _ _ (by norm_num), d, d]
  simp only [sum_range_succ, range_zero, sum_empty, zero_add, single]
  norm_num
  rw [a12, r12, x11, x10]
  ring

theorem obl_perm : (modeNumbers [.i1 0, .i2 1 2]).Perm (List.range 3) := by decide

theorem obl_partner (i j : Nat) (hi : i < 3) (hj : j < 3) (h : i ≠ j) (e : oblFreq i = oblFreq j) :
    .i2 i j ∈ [Mode.i1 0, .i2 1 2] ∨ .i2 j i ∈ [Mode.i1 0, .i2 1 2] := by
  interval_cases i <;> interval_cases j <;> first | exact absurd rfl h | (norm_num [oblFreq] at e; done) | simp

/-- The hypotheses of `c110_levels_partial` are met by an oblate top with coupled vibrations whose degenerate mode has one
quantum and which rotates about a perpendicular axis: both states listed as one have energies. -/
example (j : ℝ) : ∃ (t : StateTab) (E0 E1 E2 E0' E1' E2' : ℝ), newStates 3 5 [.i1 0, .i2 1 2] = some t ∧
    (modeNumbers [.i1 0, .i2 1 2]).Perm (List.range 3) ∧
    (vibRot (fun a => 16 / oblI a) oblI oblFreq oblWila oblZeta oblF3).Axial [.i1 0, .i2 1 2] (fun _ => 1)
      (planeAxis .oblateSymmTop) (1 - planeAxis .oblateSymmTop) ∧ Symm4 3 oblF4 ∧ (∀ i < 3, 0 < oblFreq i) ∧
    NoResonance 3 oblFreq ∧ (∀ i j, i < 3 → j < 3 → i ≠ j → oblFreq i = oblFreq j →
      .i2 i j ∈ [Mode.i1 0, .i2 1 2] ∨ .i2 j i ∈ [Mode.i1 0, .i2 1 2]) ∧
    (∃ s, t.states[2]? = some s ∧ Components [.i1 0, .i2 1 2] s (single 1) (single 2)) ∧
    (∀ k k2, .i2 k k2 ∈ [Mode.i1 0, .i2 1 2] → oblZeta k k2 1 = 0) ∧ oblZeta 0 2 1 = 1 / 3 ∧
    RotEnergy 16 oblI (fun k a b => oblWila k (pairIdx a b)) oblFreq oblF3 oblF4 oblZeta (about 1 j)
      (fun i : Fin 3 => single 1 i) E0 E1 E2 ∧
    RotEnergy 16 oblI (fun k a b => oblWila k (pairIdx a b)) oblFreq oblF3 oblF4 oblZeta (about 1 j)
      (fun i : Fin 3 => single 2 i) E0' E1' E2' := by
  have z : ∀ k k2, .i2 k k2 ∈ [Mode.i1 0, .i2 1 2] → oblZeta k k2 1 = 0 := by
    intro k k2 h
    simp at h
    obtain ⟨rfl, rfl⟩ := h
    norm_num [oblZeta, oblKind]
  have zs : ∑ a ∈ range 3, 2 * (16 / oblI a) * about 1 j a * oblZeta 1 2 a = 0 := by
    refine sum_eq_zero fun a _ => ?_
    by_cases ha : a = 1
    · rw [ha, z 1 2 (by simp), mul_zero]
    · rw [show about 1 j a = 0 from if_neg ha, mul_zero, zero_mul]
  have M := obl_mirror 1 (.inl rfl) j
  obtain ⟨E0, E1, E2, h⟩ := M.comp_exists (single_unit 1) zs
  obtain ⟨E0', E1', E2', h'⟩ := M.swap.comp_exists (single_unit 2) (by
    rw [← neg_eq_zero, ← sum_neg_distrib]
    refine (sum_congr rfl fun a _ => ?_).trans zs
    show -(_ * oblZeta 2 1 a) = _
    rw [show oblZeta 2 1 a = -oblZeta 1 2 a from obl_axial.anti 2 1 a]
    ring)
  obtain ⟨t, ht⟩ : ∃ t, newStates 3 5 [.i1 0, .i2 1 2] = some t := Option.isSome_iff_exists.1 (by decide)
  obtain ⟨-, -, s2⟩ := states_first ht
  have st := s2 0 (by decide)
  refine ⟨t, E0, E1, E2, E0', E1', E2', ht, obl_perm, obl_axial, obl_symm4, fun i _ => oblFreq_pos i, oblFreq_noRes,
    obl_partner, ⟨_, st.1, ?_⟩, z, by norm_num [oblZeta, oblKind], h, h'⟩
  exact components_pair (modes := [.i1 0, .i2 1 2]) (by decide) (q := 0) (by decide) st.2

/-- The hypotheses of `c110_rotating_partial` are met by the same molecule; both rotating states of the degenerate mode have
energies, which the Coriolis constant of the mode splits. -/
example (j σ : ℝ) (hσ : σ ^ 2 = 1) : ∃ (t : StateTab) (E0 E1 E2 : ℝ), newStates 3 5 [.i1 0, .i2 1 2] = some t ∧
    (modeNumbers [.i1 0, .i2 1 2]).Perm (List.range 3) ∧
    (vibRot (fun a => 16 / oblI a) oblI oblFreq oblWila oblZeta oblF3).Axial [.i1 0, .i2 1 2] (fun _ => 1)
      (planeAxis .oblateSymmTop) (1 - planeAxis .oblateSymmTop) ∧ Symm4 3 oblF4 ∧ (∀ i < 3, 0 < oblFreq i) ∧
    NoResonance 3 oblFreq ∧ (∀ i j, i < 3 → j < 3 → i ≠ j → oblFreq i = oblFreq j →
      .i2 i j ∈ [Mode.i1 0, .i2 1 2] ∨ .i2 j i ∈ [Mode.i1 0, .i2 1 2]) ∧ oblZeta 1 2 2 = 1 / 2 ∧
    RotPairEnergy 16 oblI (fun k a b => oblWila k (pairIdx a b)) oblFreq oblF3 oblF4 oblZeta (about 2 j)
      (fun i : Fin 3 => if (i : Nat) = (degPairs [.i1 0, .i2 1 2])[0].1 then 1 else 0)
      (fun i : Fin 3 => if (i : Nat) = (degPairs [.i1 0, .i2 1 2])[0].2 then 1 else 0) σ E0 E1 E2 := by
  have h3 : Symm3 3 oblF3 := fun i j k _ _ _ => obl_axial.cubic i j k
  have hz : ∀ a k l, k < 3 → l < 3 → oblZeta k l a = -oblZeta l k a := fun a k l _ _ => obl_axial.anti k l a
  obtain ⟨E0, E1, E2, h⟩ := (obl_mirror 2 (.inr rfl) j).pair_exists (single_unit 1) (single_unit 2) (σ := σ) (.inl hσ) (.inr (by
    have e := obl_equal j
    have r1 := rot_value (κ := 16) (I := oblI) (A := fun k a b => oblWila k (pairIdx a b)) (by norm_num) h3 obl_symm4 hz
      (fun i _ => oblFreq_pos i) (about 2 j) (single 1)
    have r2 := rot_value (κ := 16) (I := oblI) (A := fun k a b => oblWila k (pairIdx a b)) (by norm_num) h3 obl_symm4 hz
      (fun i _ => oblFreq_pos i) (about 2 j) (single 2)
    exact r1.trans (e.trans r2.symm)))
  obtain ⟨t, ht⟩ : ∃ t, newStates 3 5 [.i1 0, .i2 1 2] = some t := Option.isSome_iff_exists.1 (by decide)
  exact ⟨t, E0, E1, E2, ht, obl_perm, obl_axial, obl_symm4, fun i _ => oblFreq_pos i, oblFreq_noRes, obl_partner,
    by norm_num [oblZeta, oblKind], h⟩

/-- The hypotheses of `c110_levels_partial` are met by the ground state of the same molecule and the unique axis. -/
example (j : ℝ) : ∃ E0 E1 E2, (∀ s, Components [.i1 0, .i2 1 2] (.i1st [0, 0, 0]) s s ↔ s 0 = 0 ∧ s 1 = 0 ∧ s 2 = 0) ∧
    RotEnergy 16 oblI (fun k a b => oblWila k (pairIdx a b)) oblFreq oblF3 oblF4 oblZeta (about 2 j)
      (fun i : Fin 3 => (fun _ => 0) (i : Nat)) E0 E1 E2 := by
  have ex : ∃ E0 E1 E2, RotEnergy 16 oblI (fun k a b => oblWila k (pairIdx a b)) oblFreq oblF3 oblF4 oblZeta (about 2 j)
      (fun i : Fin 3 => (fun _ => 0) (i : Nat)) E0 E1 E2 := by
    refine second_exists oblFreq_noRes.fin (fun i => oblFreq_pos i) (fun i j _ => .inr (.inr ⟨rfl, rfl⟩))
      (fun a k l => obl_axial.anti k l a) (fun m hm e => hm ?_) ?_
    · unfold level at e
      simp only [Fin.sum_univ_three, toInt, oblFreq] at e
      norm_num at e
      have h' : 5 * m 0 + 8 * (m 1 + m 2) = 0 := by
        have : (5 * (m 0 : ℝ) + 8 * ((m 1 : ℝ) + m 2)) = 0 := by linarith
        exact_mod_cast this
      funext i
      fin_cases i <;> simp <;> omega
    · rw [amp_sum, Finset.sum_apply]
      refine sum_eq_zero fun b _ => ?_
      rw [amp_linear, amp_angular, amp_oscState, lin_ang_diag]
  obtain ⟨E0, E1, E2, h⟩ := ex
  refine ⟨E0, E1, E2, fun s => ⟨fun h => ?_, fun h => ?_⟩, h⟩
  · have a := (h.single 0 (by decide)).1
    obtain ⟨b, c, -⟩ := h.pair 0 (by decide)
    change s 0 = 0 at a
    change s 1 + s 2 = 0 at b
    omega
  · refine ⟨fun q hq => ?_, fun q hq => ?_⟩
    · have : q = 0 := by change q < 1 at hq; omega
      subst this
      exact ⟨h.1, h.1⟩
    · have : q = 0 := by change q < 1 at hq; omega
      subst this
      refine ⟨?_, ?_, ?_⟩
      · change s 1 + s 2 = 0; omega
      · change s 1 = s 2; omega
      · change s 2 = s 1; omega

end Verif
