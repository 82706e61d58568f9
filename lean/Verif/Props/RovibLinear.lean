import Verif.Props.RovibSym
import Verif.Spec.RovibLinear

/-!
# The rotational constant of linear molecules solves the Schrödinger equation of vibration and rotation (C110)
-/

namespace Verif

open Finset Osc

/-- The moments of inertia with zero for the molecular axis; a device of the proofs, `1 / 0` being zero. -/
noncomputable def dropAxis (I : Nat → ℝ) : Nat → ℝ := fun a => if a < 2 then I a else 0

theorem dropAxis_lt {I : Nat → ℝ} {a : Nat} (h : a < 2) : dropAxis I a = I a := if_pos h

theorem dropAxis_two (I : Nat → ℝ) : dropAxis I 2 = 0 := if_neg (by norm_num)

/-- The Hamiltonian of a linear molecule is that of any molecule without the terms of the molecular axis. -/
theorem linear_rotEnergy {N : Nat} {κ : ℝ} {I : Nat → ℝ} {A : Nat → Nat → Nat → ℝ} {w : Nat → ℝ} {φ : Nat → Nat → Nat → ℝ}
    {ψ : Nat → Nat → Nat → Nat → ℝ} {ζ : Nat → Nat → Nat → ℝ} {J : Nat → ℝ} {n : Fin N → Nat} {E0 E1 E2 : ℝ} :
    LinearRotEnergy κ I A w φ ψ ζ J n E0 E1 E2 ↔ RotEnergy κ (dropAxis I) A w φ ψ ζ J n E0 E1 E2 := by
  have r1 : ∀ a b k, recip1 κ (dropAxis I) w A a b k = if a < 2 ∧ b < 2 then recip1 κ I w A a b k else 0 := by
    intro a b k
    unfold recip1 dropAxis
    split_ifs <;> simp_all
  have r2 : ∀ a b k l, recip2 κ (dropAxis I) w A a b k l = if a < 2 ∧ b < 2 then recip2Linear κ I w A a b k l else 0 := by
    intro a b k l
    unfold recip2 recip2Linear
    rw [sum_range_succ _ 2, dropAxis_two]
    unfold dropAxis
    split_ifs with h1 h2 h3 h3 <;> simp_all [sum_range_succ]
  have b : ∀ a, a < 2 → κ / dropAxis I a = κ / I a := fun a h => by rw [dropAxis_lt h]
  have b2 : κ / dropAxis I 2 = 0 := by rw [dropAxis_two, div_zero]
  have s1 : ∀ k, ∑ a ∈ range 2, ∑ b ∈ range 2, recip1 κ I w A a b k * J a * J b =
      ∑ a ∈ range 3, ∑ b ∈ range 3, recip1 κ (dropAxis I) w A a b k * J a * J b := by
    intro k
    simp [sum_range_succ, r1]
  have s2 : ∀ k l, ∑ a ∈ range 2, ∑ b ∈ range 2, recip2Linear κ I w A a b k l * J a * J b =
      ∑ a ∈ range 3, ∑ b ∈ range 3, recip2 κ (dropAxis I) w A a b k l * J a * J b := by
    intro k l
    simp [sum_range_succ, r2]
  have s3 : ∀ p : Wave N, ∑ a ∈ range 2, (2 * (κ / I a) * J a) • angular w ζ a p =
      ∑ a ∈ range 3, (2 * (κ / dropAxis I a) * J a) • angular w ζ a p := by
    intro p
    rw [sum_range_succ _ 2, b2, mul_zero, zero_mul, zero_smul, add_zero]
    exact sum_congr rfl fun a ha => by rw [b a (mem_range.1 ha)]
  have s4 : ∀ p : Wave N, -∑ a ∈ range 2, (κ / I a) • angular w ζ a (angular w ζ a p) =
      Osc.coriolis w ζ (fun a => κ / dropAxis I a) p := by
    intro p
    unfold Osc.coriolis
    rw [sum_range_succ _ 2]
    beta_reduce
    rw [b2, zero_smul, add_zero]
    exact congrArg _ (sum_congr rfl fun a ha => by rw [b a (mem_range.1 ha)])
  have s5 : ∑ a ∈ range 2, κ / I a * J a ^ 2 = ∑ a ∈ range 3, κ / dropAxis I a * J a ^ 2 := by
    rw [sum_range_succ _ 2, b2, zero_mul, add_zero]
    exact sum_congr rfl fun a ha => by rw [b a (mem_range.1 ha)]
  have s6 : ∀ p : Wave N, ∑ b ∈ range 2, linear (fun k => 2 * ∑ a ∈ range 2, recip1 κ I w A a b k * J a) (angular w ζ b p) =
      ∑ b ∈ range 3, linear (fun k => 2 * ∑ a ∈ range 3, recip1 κ (dropAxis I) w A a b k * J a) (angular w ζ b p) := by
    intro p
    rw [sum_range_succ _ 2]
    have z : linear (fun k => 2 * ∑ a ∈ range 3, recip1 κ (dropAxis I) w A a 2 k * J a) (angular w ζ 2 p) = 0 := by
      unfold linear
      exact sum_eq_zero fun k _ => by simp [r1]
    rw [z, add_zero]
    refine sum_congr rfl fun b hb => ?_
    congr 1
    funext k
    congr 1
    rw [sum_range_succ _ 2, r1, if_neg (by omega), zero_mul, add_zero]
    refine sum_congr rfl fun a ha => ?_
    rw [r1, if_pos ⟨mem_range.1 ha, mem_range.1 hb⟩]
  unfold LinearRotEnergy RotEnergy
  simp only [s1, s2, s3, s4, s5, s6]

/-- C110, the tensor: the coefficients in `LinearRotEnergy` are those of Watson's tensor. -/
theorem c110_tensor (κ : ℝ) (I w : Nat → ℝ) (A : Nat → Nat → Nat → ℝ) (hI : ∀ a < 2, I a ≠ 0) :
    ∃ m1 m2, WatsonTensorLinear κ I A m1 m2 ∧
      (∀ a b k, recip1 κ I w A a b k = m1 k a b * Real.sqrt (2 * κ / w k)) ∧
      ∀ a b k l, recip2Linear κ I w A a b k l = m2 k l a b * (Real.sqrt (2 * κ / w k) * Real.sqrt (2 * κ / w l)) := by
  refine ⟨fun k a b => -(κ * A k a b / (I a * I b)),
    fun k l a b => 3 / 4 * κ * ∑ y ∈ range 2, A k a y * A l y b / (I a * I y * I b), ?_, fun _ _ _ => rfl, fun _ _ _ _ => rfl⟩
  intro k l a b ha hb
  have ia := hI a ha
  have ib := hI b hb
  have i0 := hI 0 (by norm_num)
  have i1 := hI 1 (by norm_num)
  constructor
  · field_simp
    ring
  · simp only [sum_range_succ, range_zero, sum_empty, zero_add]
    field_simp
    ring

/-- The reported constants in terms of the formula for a molecule without symmetry. -/
theorem reported_linear (modes : List Mode) (N i2vib : Nat)
    (t : StateTab) (ht : newStates N i2vib modes = some t) (hm : (modeNumbers modes).Perm (List.range N))
    (κ : ℝ) (B I w : Vec ℝ) (wila : Mat ℝ) (ζ φ : T3 ℝ) (hB : B 1 = κ / I 1)
    (hD : (vibRot B I w wila ζ φ).Axial modes (fun _ => 1) 1 0)
    (hb : ∀ k k2, .i2 k k2 ∈ modes → wila k (pairIdx 1 1) = 0)
    (hζ : ∀ k k2 j j2, .i2 k k2 ∈ modes → .i2 j j2 ∈ modes → ζ k j 0 = 0 ∧ ζ k j 1 = 0) :
    ∃ R, alphas .linear B I w wila ζ φ modes t.states [] = some R ∧
      ∀ p s, t.states[p]? = some s → R p 0 = 0 ∧ R p 2 = 0 ∧ ∀ n n', Components modes s n n' →
        R p 1 = κ / I 1 + ∑ i ∈ range N,
          alphaSpec (fun _ _ _ => False) N (fun a => κ / dropAxis I a) (dropAxis I) w (fun k a b => wila k (pairIdx a b)) ζ φ i 1 *
            (((n i : ℝ) + n' i) / 2 + 1 / 2) := by
  have nd : (modeNumbers modes).Nodup := hm.nodup_iff.2 List.nodup_range
  have lt : ∀ k, k ∈ modeNumbers modes → k < N := fun k hk => List.mem_range.1 (hm.mem_iff.1 hk)
  obtain ⟨R, hR, hv⟩ := c83_averaged .linear (by decide) modes N i2vib t ht B I w wila ζ φ []
  refine ⟨R, hR, fun p s hs => ?_⟩
  obtain ⟨v1, v2, v0⟩ := hv p s hs
  rw [if_pos rfl] at v2
  refine ⟨v0, v2, fun n n' hn => ?_⟩
  obtain ⟨c1, c2⟩ := c83_linear modes nd B I w wila ζ φ hD hb hζ
  set al := makeAlpha (symIn .linear modes B I w wila ζ φ []) with hal
  set g := fun k => alphaSpec (fun _ _ _ => False) N (fun a => κ / dropAxis I a) (dropAxis I) w
    (fun k a b => wila k (pairIdx a b)) ζ φ k 1 with hg
  have gen : ∀ skip k, k < N → (∀ k2, skip = some k2 → k2 < N ∧ k2 ≠ k ∧ w k2 = w k) →
      (vibRot B I w wila ζ φ).general [0, 1] (modeNumbers modes) skip k 1 = g k := by
    intro skip k hk hs
    have := general_alphaSpec hm (vibRot (fun a => κ / dropAxis I a) (dropAxis I) w wila ζ φ) skip k 1 hk hs
    refine Eq.trans ?_ this
    unfold VibRot.general VibRot.cubicTerm vibRot
    simp only [hB, List.map_cons, List.map_nil, List.sum_cons, List.sum_nil, dropAxis_two, dropAxis_lt (I := I) (by norm_num : 0 < 2),
      dropAxis_lt (I := I) (by norm_num : 1 < 2), div_zero, add_zero]
  have ne : ∀ k k2, .i2 k k2 ∈ modes → k ≠ k2 := fun k k2 h => pair_distinct nd h
  have weq : ∀ k k2, .i2 k k2 ∈ modes → w k2 = w k := fun k k2 h => (hD.pair k k2 h).1
  have e1 : ∀ k, .i1 k ∈ modes → al k 1 = g k := by
    intro k hk
    rw [c1 k hk, gen _ _ (lt k (mem_modeNumbers_single hk)) (by simp)]
  have e2 : ∀ k k2, .i2 k k2 ∈ modes → al k 1 = (g k + g k2) / 2 := by
    intro k k2 hk
    obtain ⟨m1, m2⟩ := mem_modeNumbers_pair hk
    rw [c2 k k2 hk, VibRot.pairAverage,
      gen _ _ (lt k m1) (by
        rintro _ ⟨⟩
        exact ⟨lt k2 m2, (ne k k2 hk).symm, weq k k2 hk⟩),
      gen _ _ (lt k2 m2) (by
        rintro _ ⟨⟩
        exact ⟨lt k m1, ne k k2 hk, (weq k k2 hk).symm⟩)]
  rw [v1, averaged_mean hm _ al g 1 e1 e2 hn, hB]

/-- C110, linear molecules: let the data be those of a linear molecule (the bending vibrations change no moment of inertia
and have no Coriolis coupling about a perpendicular axis among themselves), without Coriolis resonance, the two components
of each bending mode being the only vibrations with the same frequency, and let the frequencies have no exact resonance.
The one rotational constant `R p 1` reported for state `p` is the coefficient of `j²` in the energy which the angular
momentum `j` about a perpendicular axis adds to the state, according to perturbation theory of second order for Watson's
Hamiltonian of a linear molecule, averaged over the states which the code lists as one. The coefficient of `j⁴` is a
quarter of the distortion constant. The factor `0.086112` of the code and its conversion of the distortion constants are
rounded. No constant is reported for the other axes. -/
theorem c110_linear (modes : List Mode) (N i2vib : Nat)
    (t : StateTab) (ht : newStates N i2vib modes = some t) (hm : (modeNumbers modes).Perm (List.range N))
    (κ : ℝ) (B I w : Vec ℝ) (wila : Mat ℝ) (ζ φ : T3 ℝ) (ψ : T4 ℝ) (hκ : 0 < κ) (hB : B 1 = κ / I 1)
    (hD : (vibRot B I w wila ζ φ).Axial modes (fun _ => 1) 1 0)
    (hb : ∀ k k2, .i2 k k2 ∈ modes → wila k (pairIdx 1 1) = 0)
    (hζ : ∀ k k2 j j2, .i2 k k2 ∈ modes → .i2 j j2 ∈ modes → ζ k j 0 = 0 ∧ ζ k j 1 = 0 ∧ ζ k j2 1 = 0)
    (h4 : Symm4 N ψ) (hp : ∀ i < N, 0 < w i) (hw : NoResonance N w)
    (hd : ∀ i j, i < N → j < N → i ≠ j → w i = w j → .i2 i j ∈ modes ∨ .i2 j i ∈ modes) :
    let A := fun k a b => wila k (pairIdx a b)
    let τ := makeTau N w I wila
    let level := fun (n : Nat → Nat) (J : Nat → ℝ) (e : ℝ) => ∃ E0 E1 E2, e = E0 + E1 + E2 ∧
      LinearRotEnergy κ I A w φ ψ ζ J (fun i : Fin N => n i) E0 E1 E2
    ∃ R, alphas .linear B I w wila ζ φ modes t.states [] = some R ∧
      ∀ p s, t.states[p]? = some s → R p 0 = 0 ∧ R p 2 = 0 ∧ ∀ n n', Components modes s n n' → ∀ j E E' G G',
        level n (about 1 j) E → level n' (about 1 j) E' → level n (about 1 0) G → level n' (about 1 0) G' →
        ((E - G) + (E' - G')) / 2 =
          (R p 1 + ∑ i ∈ range N, roundedPart N κ I w A φ i 1 * (((n i : ℝ) + n' i) / 2 + 1 / 2)) * j ^ 2 +
          8 * κ ^ 3 / 38333.84078 * (1 / 4 * τ 1 1 1 1) * j ^ 4 := by
  intro A τ level
  obtain ⟨R, hR, hv⟩ := reported_linear modes N i2vib t ht hm κ B I w wila ζ φ hB hD hb
    (fun k k2 j j2 hk hj => ⟨(hζ k k2 j j2 hk hj).1, (hζ k k2 j j2 hk hj).2.1⟩)
  refine ⟨R, hR, fun p s hs => ?_⟩
  obtain ⟨v0, v2, v1⟩ := hv p s hs
  refine ⟨v0, v2, fun n n' hn j E E' G G' hE hE' hG hG' => ?_⟩
  have h3 : Symm3 N φ := fun i j k _ _ _ => hD.cubic i j k
  have hz : ∀ a k l, k < N → l < N → ζ k l a = -ζ l k a := fun a k l _ _ => hD.anti k l a
  have hA : ∀ k a b, A k a b = A k b a := hD.tensor
  have hτ : τ 1 1 1 1 = tauSpec N w (dropAxis I) A 1 1 1 1 := by
    rw [show τ 1 1 1 1 = tauSpec N w I A 1 1 1 1 from c44_value _ _ _ _ _ _ _ _]
    unfold tauSpec
    simp only [dropAxis_lt (I := I) (by norm_num : 1 < 2)]
  have hr : ∀ i, roundedPart N κ I w A φ i 1 = roundedPart N κ (dropAxis I) w A φ i 1 := by
    intro i
    unfold roundedPart
    rw [dropAxis_lt (by norm_num)]
  have conv : ∀ n J e, level n J e → ∃ E0 E1 E2, e = E0 + E1 + E2 ∧
      RotEnergy κ (dropAxis I) A w φ ψ ζ J (fun i : Fin N => n i) E0 E1 E2 := by
    rintro n J e ⟨E0, E1, E2, a, b⟩
    exact ⟨E0, E1, E2, a, linear_rotEnergy.1 b⟩
  have key := levels_mean (I := dropAxis I) (ψ := ψ) hκ h3 h4 hz hA hp hw hd hn (by norm_num : 1 < 3)
    (fun k k2 hk => .inl (hζ k k2 k k2 hk hk).2.2) j E E' G G' (conv _ _ _ hE) (conv _ _ _ hE') (conv _ _ _ hG) (conv _ _ _ hG')
  rw [v1 n n' hn, hτ, key, dropAxis_lt (by norm_num)]
  simp only [hr]
  rfl

/-! ### A linear molecule with one stretching mode (0) and one bending mode (1, 2) -/

noncomputable section

/-- Moments of inertia of the example. -/
def linI : Vec ℝ := fun a => if a < 2 then 4 else 0

/-- Derivatives of the inertia tensor of the example. -/
def linWila : Mat ℝ := fun i c => if i = 0 ∧ (c = 0 ∨ c = 2) then 3 else 0

/-- Cubic constants of the example. -/
def linF3 : T3 ℝ := fun i j k =>
  let s := oblKind i + oblKind j + oblKind k
  if s = 0 then 30 else if s = 2 ∨ s = 12 then 20 else 0

end

theorem lin_axial : (vibRot (fun a => 16 / linI a) linI oblFreq linWila oblZeta linF3).Axial [.i1 0, .i2 1 2] (fun _ => 1) 1 0 where
  inertia := by norm_num [linI]
  anti := obl_axial.anti
  cubic := by
    intro i j k
    simp only [linF3]
    rw [show oblKind j + oblKind i + oblKind k = oblKind i + oblKind j + oblKind k by omega,
      show oblKind i + oblKind k + oblKind j = oblKind i + oblKind j + oblKind k by omega]
    exact ⟨rfl, rfl⟩
  tensor := by
    intro i x y
    exact vibRot_tensor _ _ _ _ _ _ i x y
  single := by
    intro k hk
    simp at hk
    subst hk
    norm_num [linWila, pairIdx, ioff]
  singles := obl_axial.singles
  pair := by
    intro k k2 hk
    simp at hk
    obtain ⟨rfl, rfl⟩ := hk
    norm_num [linWila, pairIdx, ioff, oblFreq]
  mixed := by
    intro j k k2 hj hk
    simp at hk hj
    obtain ⟨rfl, rfl⟩ := hk
    subst hj
    norm_num [oblZeta, oblKind, linF3]
  pairs := obl_axial.pairs
  cubics := by
    intro k k2 j j2 hk hj
    simp at hk hj
    obtain ⟨rfl, rfl⟩ := hk
    obtain ⟨rfl, rfl⟩ := hj
    norm_num [oblKind, linF3]

theorem lin_c3 (i j l : Nat) (h : linF3 i j l ≠ 0) : oblOdd i + oblOdd j + oblOdd l = 0 := by
  unfold linF3 at h
  rcases oblKind_odd i with ⟨a, b⟩ | ⟨a, b⟩ | ⟨a, b⟩ | ⟨a, b⟩ <;>
    rcases oblKind_odd j with ⟨c, d⟩ | ⟨c, d⟩ | ⟨c, d⟩ | ⟨c, d⟩ <;>
      rcases oblKind_odd l with ⟨e, f⟩ | ⟨e, f⟩ | ⟨e, f⟩ | ⟨e, f⟩ <;>
        rw [a, c, e] at h <;> rw [b, d, f] <;> first | decide | exact absurd (by norm_num) h

theorem lin_level (j : ℝ) (k : Fin 3) (hk : k = 1 ∨ k = 2) : ∃ E0 E1 E2,
    LinearRotEnergy 16 linI (fun k a b => linWila k (pairIdx a b)) oblFreq linF3 oblF4 oblZeta (about 1 j)
      (fun i : Fin 3 => single k i) E0 E1 E2 := by
  have ab : ∀ a, a ≠ 1 → about 1 j a = 0 := fun a h => if_neg h
  have M := mirror_of (N := 3) (κ := 16) (I := dropAxis linI) (A := fun k a b => linWila k (pairIdx a b)) (w := oblFreq)
    (φ := linF3) (ψ := oblF4) (ζ := oblZeta) (J := about 1 j) (o := oblOdd) (t := 1) (ta := fun a => if a = 0 then 0 else 1)
    (k := 1) (k2 := 2) (by norm_num) (by norm_num)
    (fun i _ => oblFreq_pos i) oblFreq_noRes (by norm_num) rfl (by
      intro i hi h
      interval_cases i <;> norm_num [oblFreq] at h <;> simp) oblFreq_alone (fun a k l _ _ => obl_axial.anti k l a)
    (by decide) lin_c3 obl_c4 obl_z (by
      intro i h
      rw [about_sum _ _ (by norm_num)] at h
      have h := left_ne_zero_of_mul h
      unfold recip1 at h
      have h := left_ne_zero_of_mul h
      unfold oblOdd
      split_ifs with e
      · subst e
        exact absurd (by norm_num [linWila]) h
      · rfl) (by
      intro i l h
      rw [about_sum _ _ (by norm_num)] at h
      have h := left_ne_zero_of_mul h
      unfold recip2 at h
      have h := right_ne_zero_of_mul (left_ne_zero_of_mul h)
      by_contra hc
      apply h
      refine sum_eq_zero fun y _ => ?_
      have cs : i ≠ 0 ∨ l ≠ 0 := by
        by_contra hh
        push Not at hh
        apply hc
        rw [hh.1, hh.2]
        decide
      rcases cs with h0 | h0 <;> simp [linWila, h0]) (by
      intro i l h
      have e : ∑ a ∈ range 3, 2 * (16 / dropAxis linI a) * about 1 j a * oblZeta i l a =
          2 * (16 / dropAxis linI 1) * j * oblZeta i l 1 := by
        unfold about
        simp [sum_range_succ]
      rw [e] at h
      have := obl_z i l 1 (by norm_num) (right_ne_zero_of_mul h)
      rwa [if_neg (by omega)] at this)
  have zs : ∑ a ∈ range 3, 2 * (16 / dropAxis linI a) * about 1 j a * oblZeta 1 2 a = 0 := by
    refine sum_eq_zero fun a _ => ?_
    by_cases ha : a = 1
    · rw [ha, show oblZeta 1 2 1 = 0 by norm_num [oblZeta, oblKind], mul_zero]
    · rw [ab a ha, mul_zero, zero_mul]
  rcases hk with rfl | rfl
  · obtain ⟨E0, E1, E2, h⟩ := M.comp_exists (single_unit 1) zs
    exact ⟨E0, E1, E2, linear_rotEnergy.2 h⟩
  · obtain ⟨E0, E1, E2, h⟩ := M.swap.comp_exists (single_unit 2) (by
      rw [← neg_eq_zero, ← sum_neg_distrib]
      refine (sum_congr rfl fun a _ => ?_).trans zs
      show -(_ * oblZeta 2 1 a) = _
      rw [show oblZeta 2 1 a = -oblZeta 1 2 a from obl_axial.anti 2 1 a]
      ring)
    exact ⟨E0, E1, E2, linear_rotEnergy.2 h⟩

/-- The hypotheses of `c110_linear` are met by a linear molecule with coupled vibrations whose bending mode has one quantum;
both states listed as one have energies, with and without rotation. -/
example (j : ℝ) : ∃ (t : StateTab) (E0 E1 E2 E0' E1' E2' : ℝ), newStates 3 5 [.i1 0, .i2 1 2] = some t ∧
    (modeNumbers [.i1 0, .i2 1 2]).Perm (List.range 3) ∧
    (vibRot (fun a => 16 / linI a) linI oblFreq linWila oblZeta linF3).Axial [.i1 0, .i2 1 2] (fun _ => 1) 1 0 ∧
    (∀ k k2, .i2 k k2 ∈ [Mode.i1 0, .i2 1 2] → linWila k (pairIdx 1 1) = 0) ∧
    (∀ k k2 j j2, .i2 k k2 ∈ [Mode.i1 0, .i2 1 2] → .i2 j j2 ∈ [Mode.i1 0, .i2 1 2] →
      oblZeta k j 0 = 0 ∧ oblZeta k j 1 = 0 ∧ oblZeta k j2 1 = 0) ∧
    Symm4 3 oblF4 ∧ (∀ i < 3, 0 < oblFreq i) ∧ NoResonance 3 oblFreq ∧
    (∀ i j, i < 3 → j < 3 → i ≠ j → oblFreq i = oblFreq j →
      .i2 i j ∈ [Mode.i1 0, .i2 1 2] ∨ .i2 j i ∈ [Mode.i1 0, .i2 1 2]) ∧
    (∃ s, t.states[2]? = some s ∧ Components [.i1 0, .i2 1 2] s (single 1) (single 2)) ∧
    oblZeta 0 2 1 = 1 / 3 ∧ linF3 0 1 1 = 20 ∧ linWila 0 2 = 3 ∧
    LinearRotEnergy 16 linI (fun k a b => linWila k (pairIdx a b)) oblFreq linF3 oblF4 oblZeta (about 1 j)
      (fun i : Fin 3 => single 1 i) E0 E1 E2 ∧
    LinearRotEnergy 16 linI (fun k a b => linWila k (pairIdx a b)) oblFreq linF3 oblF4 oblZeta (about 1 j)
      (fun i : Fin 3 => single 2 i) E0' E1' E2' := by
  obtain ⟨E0, E1, E2, h⟩ := lin_level j 1 (.inl rfl)
  obtain ⟨E0', E1', E2', h'⟩ := lin_level j 2 (.inr rfl)
  obtain ⟨t, ht⟩ : ∃ t, newStates 3 5 [.i1 0, .i2 1 2] = some t := Option.isSome_iff_exists.1 (by decide)
  obtain ⟨-, -, s2⟩ := states_first ht
  have st := s2 0 (by decide)
  refine ⟨t, E0, E1, E2, E0', E1', E2', ht, obl_perm, lin_axial, ?_, ?_, obl_symm4, fun i _ => oblFreq_pos i, oblFreq_noRes,
    obl_partner, ⟨_, st.1, components_pair (modes := [.i1 0, .i2 1 2]) (by decide) (q := 0) (by decide) st.2⟩,
    by norm_num [oblZeta, oblKind], by norm_num [linF3, oblKind], by norm_num [linWila], h, h'⟩
  · intro k k2 hk
    simp at hk
    obtain ⟨rfl, rfl⟩ := hk
    norm_num [linWila]
  · intro k k2 j j2 hk hj
    simp at hk hj
    obtain ⟨rfl, rfl⟩ := hk
    obtain ⟨rfl, rfl⟩ := hj
    norm_num [oblZeta, oblKind]

/-- `c110_tensor` for moments of two axes and none about the third. -/
example : ∃ m1 m2, WatsonTensorLinear 16 linI (fun _ _ _ => 1) m1 m2 := by
  obtain ⟨m1, m2, h, -⟩ := c110_tensor 16 linI (fun _ => 1) (fun _ _ _ => 1) (fun a ha => by simp [linI, ha])
  exact ⟨m1, m2, h⟩

end Verif
