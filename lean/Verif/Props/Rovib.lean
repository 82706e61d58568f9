import Verif.Props.Perturb
import Verif.Lemmas.RovibForm
import Verif.Model.Geom
import Mathlib.Analysis.Real.Pi.Bounds

/-!
# The rotational and distortion constants solve the Schrödinger equation of vibration and rotation (C103)
-/

namespace Verif

open Finset Osc

variable {ι : Type}

/-- C103, kinetic energy: the coefficients with which `RotEnergy` expands `½ μ` are those of Watson's reciprocal inertia
tensor, expressed in the dimensionless coordinates `Q_k = √(2κ / w_k) q_k`. -/
theorem c103_tensor (κ : ℝ) (I w : Nat → ℝ) (A : Nat → Nat → Nat → ℝ) (hI : ∀ a < 3, I a ≠ 0) :
    ∃ m1 m2, WatsonTensor κ I A m1 m2 ∧
      (∀ a b k, recip1 κ I w A a b k = m1 k a b * Real.sqrt (2 * κ / w k)) ∧
      ∀ a b k l, recip2 κ I w A a b k l = m2 k l a b * (Real.sqrt (2 * κ / w k) * Real.sqrt (2 * κ / w l)) := by
  refine ⟨fun k a b => -(κ * A k a b / (I a * I b)),
    fun k l a b => 3 / 4 * κ * ∑ y ∈ range 3, A k a y * A l y b / (I a * I y * I b), ?_, fun _ _ _ => rfl, fun _ _ _ _ => rfl⟩
  intro k l a b ha hb
  have ia := hI a ha
  have ib := hI b hb
  have i0 := hI 0 (by norm_num)
  have i1 := hI 1 (by norm_num)
  have i2 := hI 2 (by norm_num)
  constructor
  · field_simp
    ring
  · simp only [sum_range_succ, range_zero, sum_empty, zero_add]
    field_simp
    ring

/-- `c103_tensor` for the moments of a bent molecule; the expansion is not trivial. -/
example : ∃ m1 m2, WatsonTensor 16 (fun a => (a : ℝ) + 1) (fun _ _ _ => 1) m1 m2 ∧
    recip1 16 (fun a => (a : ℝ) + 1) (fun _ => 2) (fun _ _ _ => 1) 0 0 0 = -64 ∧ m1 0 0 0 = -16 := by
  obtain ⟨m1, m2, h, h1, -⟩ := c103_tensor 16 (fun a => (a : ℝ) + 1) (fun _ => 2) (fun _ _ _ => 1)
    (fun a _ => by positivity)
  have e : Real.sqrt (2 * 16 / 2) = 4 := by
    rw [show (2 * 16 / 2 : ℝ) = 4 ^ 2 by norm_num]
    exact Real.sqrt_sq (by norm_num)
  have e1 : recip1 16 (fun a => (a : ℝ) + 1) (fun _ => 2) (fun _ _ _ => 1) 0 0 0 = -64 := by
    unfold recip1
    rw [e]
    norm_num
  refine ⟨m1, m2, h, e1, ?_⟩
  have := h1 0 0 0
  rw [e1, e] at this
  linarith

/-- What the anharmonic part of the vibration-rotation constant of mode `i` about axis `x` lacks because the code has
`0.086112` for `1 / √(8κ)`. -/
noncomputable def roundedPart (N : Nat) (κ : ℝ) (I w : Nat → ℝ) (A φ : Nat → Nat → Nat → ℝ) (i x : Nat) : ℝ :=
  2 * (κ / I x) ^ 2 * (1 / Real.sqrt (8 * κ) - 0.086112) * ∑ j ∈ range N, A j x x * φ i i j / w j ^ (3 / 2 : ℝ)

/-- The coefficient of `J_a²` in terms of the vibration-rotation constants. -/
theorem rotSecond_diag {N : Nat} {κ : ℝ} {I : Nat → ℝ} {A : Nat → Nat → Nat → ℝ} {w : Nat → ℝ} {φ ζ : Nat → Nat → Nat → ℝ}
    (hκ : 0 < κ) (hp : ∀ i < N, 0 < w i) (hA : ∀ k a b, A k a b = A k b a) (n : Nat → Nat) (a : Nat) :
    rotSecond N κ I A w φ ζ n a a = κ / I a + ∑ k ∈ range N,
      (alphaSpec (fun _ _ _ => False) N (fun a => κ / I a) I w A ζ φ k a + roundedPart N κ I w A φ k a) *
        ((n k : ℝ) + 1 / 2) := by
  unfold rotSecond
  rw [if_pos rfl]
  congr 1
  refine sum_congr rfl fun k hk => ?_
  congr 1
  have wk := hp k (mem_range.1 hk)
  unfold alphaSpec roundedPart
  simp only [if_false]
  have t1 : recip2 κ I w A a a k k = 2 * (κ / I a) ^ 2 / w k * (3 / 4 * ∑ y ∈ range 3, A k a y ^ 2 / I y) := by
    unfold recip2
    rw [Real.mul_self_sqrt (by positivity)]
    have : ∑ y ∈ range 3, A k a y * A k y a / (I a * I y * I a) = (∑ y ∈ range 3, A k a y ^ 2 / I y) / I a ^ 2 := by
      rw [sum_div]
      refine sum_congr rfl fun y _ => ?_
      rw [hA k y a, div_div]
      congr 1 <;> ring
    rw [this]
    ring
  have t2 : ∑ l ∈ (range N).erase k, 4 * (κ / I a) * (κ / I a) * ζ k l a * ζ k l a *
      ((3 * w k ^ 2 + w l ^ 2) / (w k ^ 2 - w l ^ 2)) / (2 * w k) =
      2 * (κ / I a) ^ 2 / w k * ∑ l ∈ (range N).erase k, rotationTerm (ζ k l a) (w k) (w l) := by
    rw [mul_sum]
    refine sum_congr rfl fun l _ => ?_
    unfold rotationTerm
    ring
  have hs8 : Real.sqrt (8 * κ) = 2 * Real.sqrt (2 * κ) := by
    rw [show 8 * κ = 2 ^ 2 * (2 * κ) by ring, Real.sqrt_mul (by norm_num), Real.sqrt_sq (by norm_num)]
  have sp : 0 < Real.sqrt (2 * κ) := Real.sqrt_pos.2 (by linarith)
  have ss : Real.sqrt (2 * κ) ^ 2 = 2 * κ := Real.sq_sqrt (by linarith)
  have t3 : -∑ j ∈ range N, recip1 κ I w A a a j * φ k k j / (2 * w j) =
      2 * (κ / I a) ^ 2 * (1 / Real.sqrt (8 * κ)) * ∑ j ∈ range N, A j a a * φ k k j / w j ^ (3 / 2 : ℝ) := by
    rw [← sum_neg_distrib, mul_sum]
    refine sum_congr rfl fun j hj => ?_
    have wj := hp j (mem_range.1 hj)
    unfold recip1
    have hpow : w j ^ (3 / 2 : ℝ) = w j * Real.sqrt (w j) := by
      rw [show (3 / 2 : ℝ) = 1 + 1 / 2 by norm_num, Real.rpow_add wj, Real.rpow_one, Real.sqrt_eq_rpow]
    rw [hpow, hs8, Real.sqrt_div (by linarith : (0 : ℝ) ≤ 2 * κ)]
    have rj := Real.sqrt_pos.2 wj
    have hk' : κ = Real.sqrt (2 * κ) ^ 2 / 2 := by rw [ss]; ring
    by_cases hi : I a = 0
    · simp [hi]
    · field_simp
      rw [mul_comm κ 2, ss]
      ring
  have t4 : ∑ j ∈ range N, A j a a * φ k k j * w k / w j ^ (3 / 2 : ℝ) =
      w k * ∑ j ∈ range N, A j a a * φ k k j / w j ^ (3 / 2 : ℝ) := by
    rw [mul_sum]
    exact sum_congr rfl fun j _ => by ring
  rw [t1, t2, t3, t4]
  field_simp
  ring

/-- The vibration-rotation constants, when no Coriolis resonance is listed. -/
theorem alpha_unlisted (N : Nat) (B I w : Vec ℝ) (wila : Mat ℝ) (zeta F3 : T3 ℝ) (i x : Nat) :
    alpha N B I w wila zeta F3 [] i x =
      alphaSpec (fun _ _ _ => False) N B I w (fun k a b => wila k (pairIdx a b)) zeta F3 i x := by
  rw [c28_regular_iff_listed_partial _ _ _ _ _ _ _ _ (by simp)]
  unfold alphaFormula alphaSpec
  simp only [List.not_mem_nil, or_self, coriolisTerm, if_false]
  rw [filter_ne']
  rfl

theorem pairIdx_symm (a b : Nat) : pairIdx a b = pairIdx b a := by
  unfold pairIdx
  rw [max_comm, min_comm]

/-- The distortion energy in terms of the `τ` constants. -/
theorem tau_energy (N : Nat) (κ : ℝ) (I w : Nat → ℝ) (A : Nat → Nat → Nat → ℝ) (J : Nat → ℝ) :
    -(κ ^ 3 * ∑ k ∈ range N, (∑ a ∈ range 3, ∑ b ∈ range 3, A k a b / (I a * I b) * J a * J b) ^ 2 / w k ^ 2) =
      8 * κ ^ 3 / 38333.84078 * (1 / 4 * ∑ a ∈ range 3, ∑ b ∈ range 3, ∑ c ∈ range 3, ∑ d ∈ range 3,
        tauSpec N w I A a b c d * J a * J b * J c * J d) := by
  have e : ∑ a ∈ range 3, ∑ b ∈ range 3, ∑ c ∈ range 3, ∑ d ∈ range 3, tauSpec N w I A a b c d * J a * J b * J c * J d =
      -(38333.84078 / 2) * ∑ k ∈ range N,
        (∑ a ∈ range 3, ∑ b ∈ range 3, A k a b / (I a * I b) * J a * J b) ^ 2 / w k ^ 2 := by
    have sq : ∀ k, (∑ a ∈ range 3, ∑ b ∈ range 3, A k a b / (I a * I b) * J a * J b) ^ 2 / w k ^ 2 =
        ∑ a ∈ range 3, ∑ b ∈ range 3, ∑ c ∈ range 3, ∑ d ∈ range 3,
          A k a b * A k c d / (w k ^ 2 * (I a * I b * I c * I d)) * J a * J b * J c * J d := by
      intro k
      rw [pow_two, sum_mul_sum, sum_div]
      simp only [sum_mul_sum, sum_div]
      refine sum_congr rfl fun a _ => ?_
      rw [sum_comm]
      refine sum_congr rfl fun b _ => sum_congr rfl fun c _ => sum_congr rfl fun d _ => ?_
      ring
    simp only [sq]
    conv_rhs => rw [sum_comm, mul_sum]
    refine sum_congr rfl fun a _ => ?_
    conv_rhs => rw [sum_comm, mul_sum]
    refine sum_congr rfl fun b _ => ?_
    conv_rhs => rw [sum_comm, mul_sum]
    refine sum_congr rfl fun c _ => ?_
    conv_rhs => rw [sum_comm, mul_sum]
    refine sum_congr rfl fun d _ => ?_
    unfold tauSpec
    simp only [mul_assoc, ← sum_mul]
  rw [e]
  ring

/-- C103, energies: for a molecule without listed resonances the vibration-rotation constants computed from frequencies,
derivatives of the inertia tensor, Coriolis and cubic constants, and the computed `τ` constants, give the energies of
every vibrational state for every angular momentum `J` to second order of perturbation theory: whenever
`E₀ + ε E₁ + ε² E₂` is an energy of Watson's Hamiltonian, `E₂` is the vibrational energy of C102, plus a quadratic form
in `J` which depends on the vibrational state and whose diagonal is the rotational constant plus
`Σ α_i (n_i + ½)`, plus `¼ Σ τ_abcd J_a J_b J_c J_d`. The code's rounded values of `1 / √(8κ)` and `8 κ³` are
the only differences (see `c103_constants` for their size). -/
theorem c103_levels (N : Nat) (κ : ℝ) (F4 : T4 ℝ) (w I : Vec ℝ) (F3 zeta : T3 ℝ) (wila : Mat ℝ) (modes : List Mode)
    (hκ : 0 < κ) (hm : nonDeg modes = List.range N) (h3 : Symm3 N F3) (h4 : Symm4 N F4)
    (hz : ∀ a k l, k < N → l < N → zeta k l a = -zeta l k a) (hp : ∀ i < N, 0 < w i) (hw : NoResonance N w)
    (hd : ∀ i j, i < N → j < N → i ≠ j → w i ≠ w j) (n : Nat → Nat) :
    let B := fun a => κ / I a
    let A := fun k a b => wila k (pairIdx a b)
    let x := (xcalc N F4 w F3 zeta B modes [] []).1
    let e0 := (xcalc N F4 w F3 zeta B modes [] []).2
    let al := alpha N B I w wila zeta F3 []
    let τ := makeTau N w I wila
    ∃ R : Nat → Nat → ℝ,
      (∀ a, R a a = B a + ∑ i ∈ range N, (al i a + roundedPart N κ I w A F3 i a) * ((n i : ℝ) + 1 / 2)) ∧
      ∀ J E0 E1 E2, RotEnergy κ I A w F3 F4 zeta J (fun i : Fin N => n i) E0 E1 E2 →
        E0 = ∑ i ∈ range N, w i * ((n i : ℝ) + 1 / 2) ∧ E1 = 0 ∧
        E2 = (e0 + ∑ k ∈ range N, ∑ l ∈ range (k + 1), x k l * ((n k : ℝ) + 1 / 2) * ((n l : ℝ) + 1 / 2)
            - 1 / 2 * ∑ k ∈ range N, ∑ l ∈ range k, ∑ a ∈ range 3, B a * zeta k l a ^ 2)
          + ∑ a ∈ range 3, ∑ b ∈ range 3, R a b * J a * J b
          + 8 * κ ^ 3 / 38333.84078 * (1 / 4 * ∑ a ∈ range 3, ∑ b ∈ range 3, ∑ c ∈ range 3, ∑ d ∈ range 3,
              τ a b c d * J a * J b * J c * J d) := by
  intro B A x e0 al τ
  refine ⟨rotSecond N κ I A w F3 zeta n, fun a => ?_, fun J E0 E1 E2 h => ?_⟩
  · rw [rotSecond_diag hκ hp (fun k a b => by simp only [A]; rw [pairIdx_symm])]
    refine congrArg _ (sum_congr rfl fun i _ => ?_)
    rw [← alpha_unlisted]
  · obtain ⟨hx, he⟩ := xcalc_spec F4 F3 zeta B modes hp hw hm
    obtain ⟨a0, a1, a2⟩ := rot_formula hκ.le h3 h4 hz hp hw (apartN_of_ne hd) h
    refine ⟨a0, a1, ?_⟩
    have ht : ∀ a b c d, τ a b c d = tauSpec N w I A a b c d := fun a b c d => c44_value _ _ _ _ _ _ _ _
    simp only [ht]
    rw [a2, ← tau_energy, show e0 = _ from he, sum_congr rfl fun k hk => sum_congr rfl fun l hl => by
      rw [← hx k l (by have := mem_range.1 hl; omega) (mem_range.1 hk)]]
    ring

/-- C103: the energies to which `c103_levels` refers exist if no other state of the harmonic oscillators has the same
energy. -/
theorem c103_exists (N : Nat) (κ : ℝ) (I : Nat → ℝ) (A : Nat → Nat → Nat → ℝ) (w : Vec ℝ) (F3 zeta : T3 ℝ) (F4 : T4 ℝ)
    (hz : ∀ a k l, k < N → l < N → zeta k l a = -zeta l k a) (hp : ∀ i < N, 0 < w i) (hw : NoResonance N w)
    (hd : ∀ i j, i < N → j < N → i ≠ j → w i ≠ w j) (J : Nat → ℝ) (n : Nat → Nat)
    (hn : ∀ m : Nat → Nat, ∑ i ∈ range N, w i * m i = ∑ i ∈ range N, w i * n i → ∀ i < N, m i = n i) :
    ∃ E0 E1 E2, RotEnergy κ I A w F3 F4 zeta J (fun i : Fin N => n i) E0 E1 E2 := by
  refine second_exists hw.fin (fun i => hp i i.2) (fun i j hij => Or.inl (hd i j i.2 j.2 fun e => hij (Fin.ext e)))
    (fun a k l => hz a k l k.2 l.2) (fun m hm e => hm ?_) ?_
  · let M : Nat → Nat := fun i => if h : i < N then m ⟨i, h⟩ else 0
    have hM : ∀ i : Fin N, M i = m i := fun i => by simp [M]
    have key : ∑ i ∈ range N, w i * M i = ∑ i ∈ range N, w i * n i := by
      rw [← Fin.sum_univ_eq_sum_range (fun i => w i * (M i : ℝ)), ← Fin.sum_univ_eq_sum_range (fun i => w i * (n i : ℝ))]
      simp only [level, toInt, Int.cast_natCast, mul_add, sum_add_distrib] at e
      simp only [hM]
      linarith
    funext i
    rw [← hM, hn M key i i.2]
  · rw [amp_sum, Finset.sum_apply]
    refine sum_eq_zero fun b _ => ?_
    rw [amp_linear, amp_angular, amp_oscState, lin_ang_diag]

theorem closeFreqs_distinct (i j : Nat) (h : i ≠ j) : closeFreqs i ≠ closeFreqs j := by
  unfold closeFreqs
  intro e
  apply h
  have : (i : ℝ) = j := by linarith
  exact_mod_cast this

/-- The hypotheses of `c103_levels` and `c103_exists` are met by three coupled modes with all derivatives of the inertia
tensor different from zero, for the ground state and the states with one quantum and any angular momentum. -/
example (n : Nat → Nat) (hn : n 0 + n 1 + n 2 ≤ 1) (J : Nat → ℝ) : ∃ (F3 : T3 ℝ) (F4 : T4 ℝ) (zeta : T3 ℝ)
    (wila : Mat ℝ) (E0 E1 E2 : ℝ), nonDeg [.i1 0, .i1 1, .i1 2] = List.range 3 ∧ Symm3 3 F3 ∧ Symm4 3 F4 ∧
    (∀ a k l, k < 3 → l < 3 → zeta k l a = -zeta l k a) ∧ (∀ i < 3, 0 < closeFreqs i) ∧ NoResonance 3 closeFreqs ∧
    (∀ i j, i < 3 → j < 3 → i ≠ j → closeFreqs i ≠ closeFreqs j) ∧
    RotEnergy 16 (fun a => (a : ℝ) + 1) (fun k a b => wila k (pairIdx a b)) closeFreqs F3 F4 zeta J
      (fun i : Fin 3 => n i) E0 E1 E2 ∧
    F3 0 1 2 = 20 ∧ zeta 1 0 2 = 1 / 2 ∧ wila 1 0 = 2 := by
  obtain ⟨E0, E1, E2, h⟩ := c103_exists 3 16 (fun a => (a : ℝ) + 1) (fun k _ _ => (k : ℝ) + 1)
    closeFreqs (fun _ _ _ => 20) (fun k l _ => ((k : ℝ) - l) / 2) (fun _ _ _ _ => 5) (fun a k l _ _ => by ring)
    closeFreqs_pos closeFreqs_noRes (fun i j _ _ h => closeFreqs_distinct i j h) J n (closeFreqs_alone n hn)
  refine ⟨fun _ _ _ => 20, fun _ _ _ _ => 5, fun k l _ => ((k : ℝ) - l) / 2, fun k _ => (k : ℝ) + 1, E0, E1, E2, rfl,
    fun _ _ _ _ _ _ => ⟨rfl, rfl⟩, fun _ _ _ _ _ _ _ _ => ⟨rfl, rfl, rfl⟩,
    fun a k l _ _ => by ring, closeFreqs_pos, closeFreqs_noRes, fun i j _ _ h => closeFreqs_distinct i j h, h, rfl,
    by norm_num, by norm_num⟩

/-- The value of `κ` from which the code computes the rotational constants. -/
theorem rotConst_bounds : 16.8576 < (ROT_CONST : ℝ) ∧ (ROT_CONST : ℝ) < 16.8577 := by
  have e : (ROT_CONST : ℝ) = 100 * (6.626176 * 6.022045) / (8 * Real.pi * Real.pi * 2.99792458) := by
    simp only [ROT_CONST, PH, AVN, CL, lit_real]
    show _ / (_ * Real.pi * Real.pi * _) = _
    norm_num
  have p1 := Real.pi_gt_d6
  have p2 := Real.pi_lt_d6
  have hpos : 0 < 8 * Real.pi * Real.pi * 2.99792458 := by positivity
  have q1 : 3.141592 ^ 2 < Real.pi * Real.pi := by nlinarith
  have q2 : Real.pi * Real.pi < 3.141593 ^ 2 := by nlinarith
  rw [e, lt_div_iff₀ hpos, div_lt_iff₀ hpos]
  constructor <;> nlinarith

/-- C103, constants: with the value of `κ` from which the code computes the rotational constants, the two rounded values
are `1 / √(8κ)` within 0.000002 and `8κ³` within 0.03 percent; neither is exact. -/
theorem c103_constants :
    |1 / Real.sqrt (8 * (ROT_CONST : ℝ)) - 0.086112| < 0.000002 ∧ 1 / Real.sqrt (8 * (ROT_CONST : ℝ)) ≠ 0.086112 ∧
    |8 * (ROT_CONST : ℝ) ^ 3 / 38333.84078 - 1| < 0.0003 ∧ 8 * (ROT_CONST : ℝ) ^ 3 ≠ 38333.84078 := by
  obtain ⟨l, u⟩ := rotConst_bounds
  set κ : ℝ := ROT_CONST
  have sp : 0 < Real.sqrt (8 * κ) := Real.sqrt_pos.2 (by linarith)
  have ss : Real.sqrt (8 * κ) ^ 2 = 8 * κ := Real.sq_sqrt (by linarith)
  have lo : 11.6128 < Real.sqrt (8 * κ) := by
    rw [Real.lt_sqrt (by norm_num)]
    norm_num
    linarith
  have hi : Real.sqrt (8 * κ) < 11.613 := by
    rw [Real.sqrt_lt' (by norm_num)]
    norm_num
    linarith
  have c1 : 16.8576 ^ 3 < κ ^ 3 := by gcongr
  have c2 : κ ^ 3 < 16.8577 ^ 3 := by gcongr
  have b1 : 1 / Real.sqrt (8 * κ) < 1 / 11.6128 := one_div_lt_one_div_of_lt (by norm_num) lo
  have b2 : 1 / 11.613 < 1 / Real.sqrt (8 * κ) := one_div_lt_one_div_of_lt sp hi
  norm_num at b1 b2 c1 c2
  refine ⟨?_, ?_, ?_, ?_⟩
  · rw [abs_lt]
    constructor <;> norm_num <;> linarith
  · intro h
    norm_num at h
    linarith
  · rw [abs_lt, lt_sub_iff_add_lt, lt_div_iff₀ (by norm_num), sub_lt_iff_lt_add, div_lt_iff₀ (by norm_num)]
    constructor <;> norm_num <;> linarith
  · intro h
    norm_num at h
    linarith

/-- The rotational constants of a state by axis. -/
def axisConst (r : Rot ℝ) (a : Nat) : ℝ := if a = 0 then r.a else if a = 1 then r.b else r.c

/-- The angular momentum `j` about axis `a`. -/
noncomputable def about (a : Nat) (j : ℝ) : Nat → ℝ := fun b => if b = a then j else 0

theorem about_sum (f : Nat → Nat → ℝ) (a : Nat) (ha : a < 3) (j : ℝ) :
    ∑ b ∈ range 3, ∑ c ∈ range 3, f b c * about a j b * about a j c = f a a * j ^ 2 := by
  unfold about
  interval_cases a <;> simp [sum_range_succ] <;> ring

/-- The energy which rotation adds to a state with one quantum, compared with what it adds to the ground state. -/
theorem rot_difference {N : Nat} {κ : ℝ} {I : Nat → ℝ} {A : Nat → Nat → Nat → ℝ} {w : Nat → ℝ} {φ : Nat → Nat → Nat → ℝ}
    {ψ : Nat → Nat → Nat → Nat → ℝ} {ζ : Nat → Nat → Nat → ℝ} (hκ : 0 < κ) (hA : ∀ k a b, A k a b = A k b a)
    (h3 : Symm3 N φ) (h4 : Symm4 N ψ) (hz : ∀ a k l, k < N → l < N → ζ k l a = -ζ l k a) (hp : ∀ i < N, 0 < w i)
    (hw : NoResonance N w) (hd : ∀ i j, i < N → j < N → i ≠ j → w i ≠ w j) {k a : Nat} (hk : k < N) (ha : a < 3) {j : ℝ}
    {G0 G1 G2 G0' G1' G2' E0 E1 E2 E0' E1' E2' : ℝ}
    (hG : RotEnergy κ I A w φ ψ ζ (about a 0) (fun _ : Fin N => 0) G0 G1 G2)
    (hG' : RotEnergy κ I A w φ ψ ζ (about a j) (fun _ : Fin N => 0) G0' G1' G2')
    (hE : RotEnergy κ I A w φ ψ ζ (about a 0) (fun i : Fin N => quanta k 1 i) E0 E1 E2)
    (hE' : RotEnergy κ I A w φ ψ ζ (about a j) (fun i : Fin N => quanta k 1 i) E0' E1' E2') :
    (E0' + E1' + E2' - (E0 + E1 + E2)) - (G0' + G1' + G2' - (G0 + G1 + G2)) =
      (alphaSpec (fun _ _ _ => False) N (fun a => κ / I a) I w A ζ φ k a + roundedPart N κ I w A φ k a) * j ^ 2 := by
  obtain ⟨g0, g1, g2⟩ := rot_formula (n := fun _ => 0) hκ.le h3 h4 hz hp hw (apartN_of_ne hd) hG
  obtain ⟨g0', g1', g2'⟩ := rot_formula (n := fun _ => 0) hκ.le h3 h4 hz hp hw (apartN_of_ne hd) hG'
  obtain ⟨e0, e1, e2⟩ := rot_formula (n := quanta k 1) hκ.le h3 h4 hz hp hw (apartN_of_ne hd) hE
  obtain ⟨e0', e1', e2'⟩ := rot_formula (n := quanta k 1) hκ.le h3 h4 hz hp hw (apartN_of_ne hd) hE'
  have diff : rotSecond N κ I A w φ ζ (quanta k 1) a a - rotSecond N κ I A w φ ζ (fun _ => 0) a a =
      alphaSpec (fun _ _ _ => False) N (fun a => κ / I a) I w A ζ φ k a + roundedPart N κ I w A φ k a := by
    rw [rotSecond_diag hκ hp hA, rotSecond_diag hκ hp hA, add_sub_add_left_eq_sub, ← sum_sub_distrib,
      sum_eq_single k]
    · simp only [quanta, if_true, Nat.cast_one, Nat.cast_zero]
      ring
    · intro b _ hb
      simp only [quanta, if_neg hb, sub_self]
    · intro hh
      exact absurd (mem_range.2 hk) hh
  rw [← diff, g0, g1, g2, g0', g1', g2', e0, e1, e2, e0', e1', e2']
  simp only [about_sum _ _ ha]
  ring

/-- C103, run: let a run of an asymmetric top have no Coriolis resonance and different positive frequencies without exact
resonance, and let the rotational constants be `κ / I`. Then the rotational constant reported for axis `a` of the state
with one quantum in mode `k` exceeds that of the ground state by the amount which perturbation theory for Watson's
Hamiltonian of the molecule gives: the energies `E'`, `G'` of the two states with angular momentum `j` about the axis and
`E`, `G` without satisfy `(E' - E) - (G' - G) = (B_k - B_0) j²`, but for the rounding of `1 / √(8κ)`. -/
theorem c103_run (s : SpectroIn ℝ) (o : Oracles ℝ ι) (fc2 : Mat ℝ) (f3x : T3 ℝ) (f4x : T4 ℝ) (out : Output ℝ ι)
    (hr : s.rotor = .asymmTop) (hn : s.n3n = 3 * s.natom) (hv : s.nvib ≤ s.n3n) (h0 : 0 < s.nvib)
    (h3 : Symm3 s.n3n f3x) (h4 : Symm4 s.n3n f4x) (h : run s o (.quartic fc2 f3x f4x) = some out)
    (κ : ℝ) (hκ : 0 < κ) (hB : ∀ a < 3, s.rotcon a = κ / s.primat a) (hc : out.resonances.coriolis = [])
    (hp : ∀ i < s.nvib, 0 < entryOf out.harms i) (hw : NoResonance s.nvib (entryOf out.harms))
    (hd : ∀ i j, i < s.nvib → j < s.nvib → i ≠ j → entryOf out.harms i ≠ entryOf out.harms j) :
    let w := entryOf out.harms
    let φ := cubicField s.n3n s.axes f3x w out.lx
    let ψ := quarticField s.n3n s.axes f4x w out.lx
    let ζ := zetaField s.natom out.lxm
    let A := inertiaField s.natom s.pos s.weights out.lxm
    let level := fun (n : Nat → Nat) (J : Nat → ℝ) (e : ℝ) => ∃ E0 E1 E2, e = E0 + E1 + E2 ∧
      RotEnergy κ s.primat A w φ ψ ζ J (fun i : Fin s.nvib => n i) E0 E1 E2
    ∃ r0, out.rots[0]? = some r0 ∧ ∀ k < s.nvib, ∃ r, out.rots[k + 1]? = some r ∧
      ∀ a < 3, ∀ j G G' E E', level (fun _ => 0) (about a 0) G → level (fun _ => 0) (about a j) G' →
        level (quanta k 1) (about a 0) E → level (quanta k 1) (about a j) E' →
        (E' - E) - (G' - G) =
          (axisConst r a - axisConst r0 a + roundedPart s.nvib κ s.primat w A φ k a) * j ^ 2 := by
  intro w φ ψ ζ A level
  obtain ⟨-, r0, hr0, -, hk⟩ := c82_rotational s o fc2 f3x f4x out hr hn hv h0 h3 h4 h (by simp [hc])
  refine ⟨r0, hr0, fun k hkn => ?_⟩
  obtain ⟨r, hrk, -, d1, d2, d3⟩ := hk k hkn
  refine ⟨r, hrk, ?_⟩
  rintro a ha j G G' E E' ⟨G0, G1, G2, rfl, hG⟩ ⟨G0', G1', G2', rfl, hG'⟩ ⟨E0, E1, E2, rfl, hE⟩ ⟨E0', E1', E2', rfl, hE'⟩
  have S3 := cubicField_symm h3 s.axes w out.lx s.nvib
  have S4 := quarticField_symm h4 s.axes w out.lx s.nvib
  have AZ : ∀ a k l, k < s.nvib → l < s.nvib → ζ k l a = -ζ l k a := fun a k l _ _ => zetaField_anti _ _ _ _ _
  have AS : ∀ k a b, A k a b = A k b a := by
    intro k a b
    simp only [A, inertiaField]
    by_cases hab : a = b
    · rw [hab]
    · rw [if_neg hab, if_neg (Ne.symm hab), min_comm, max_comm]
  have key : axisConst r a - axisConst r0 a =
      alphaSpec (fun _ _ _ => False) s.nvib (fun a => κ / s.primat a) s.primat w A ζ φ k a := by
    have : axisConst r a - axisConst r0 a = alphaSpec (fun i j x => (⟨i, j, x⟩ : Coriolis) ∈ out.resonances.coriolis ∨
        (⟨j, i, x⟩ : Coriolis) ∈ out.resonances.coriolis) s.nvib s.rotcon s.primat w A ζ φ k a := by
      unfold axisConst
      interval_cases a
      · exact d1
      · exact d2
      · exact d3
    rw [this]
    unfold alphaSpec
    simp only [hc, List.not_mem_nil, or_self, if_false]
    rw [hB a ha]
  rw [key]
  exact rot_difference hκ AS S3 S4 AZ hp hw hd hkn ha hG hG' hE hE'

/-- A bent molecule with three atoms whose rotational constants are `16 / I`. -/
noncomputable def bentTop : SpectroIn ℝ := { exampleTop with rotcon := fun a => 16 / ((a : ℝ) + 1) }

/-- The hypotheses of `c103_run` are met by a molecule with three different frequencies and all derivatives `1`, and the
energies it speaks of exist. -/
example : ∃ (fc2 : Mat ℝ) (out : Output ℝ Nat), Symm3 bentTop.n3n (fun _ _ _ => (1 : ℝ)) ∧
    Symm4 bentTop.n3n (fun _ _ _ _ => (1 : ℝ)) ∧
    run bentTop closeOracles (.quartic fc2 (fun _ _ _ => 1) fun _ _ _ _ => 1) = some out ∧
    bentTop.nvib = 3 ∧ (∀ a < 3, bentTop.rotcon a = 16 / bentTop.primat a) ∧ out.resonances.coriolis = [] ∧
    (∀ i < bentTop.nvib, 0 < entryOf out.harms i) ∧ NoResonance bentTop.nvib (entryOf out.harms) ∧
    (∀ i j, i < bentTop.nvib → j < bentTop.nvib → i ≠ j → entryOf out.harms i ≠ entryOf out.harms j) ∧
    ∀ (n : Nat → Nat), n 0 + n 1 + n 2 ≤ 1 → ∀ J, ∃ E0 E1 E2, RotEnergy 16 bentTop.primat
      (inertiaField bentTop.natom bentTop.pos bentTop.weights out.lxm) (entryOf out.harms)
      (cubicField bentTop.n3n bentTop.axes (fun _ _ _ => 1) (entryOf out.harms) out.lx)
      (quarticField bentTop.n3n bentTop.axes (fun _ _ _ _ => 1) (entryOf out.harms) out.lx)
      (zetaField bentTop.natom out.lxm) J (fun i : Fin 3 => n i) E0 E1 E2 := by
  obtain ⟨fc2, out, h, hw⟩ := closeFreqs_run (fun a => 16 / ((a : ℝ) + 1)) (fun _ _ _ => 1) fun _ _ _ _ => 1
  have h3 : Symm3 bentTop.n3n (fun _ _ _ => (1 : ℝ)) := fun _ _ _ _ _ _ => ⟨rfl, rfl⟩
  have h4 : Symm4 bentTop.n3n (fun _ _ _ _ => (1 : ℝ)) := fun _ _ _ _ _ _ _ _ => ⟨rfl, rfl, rfl⟩
  obtain ⟨⟨-, hc⟩, -⟩ := c80_resonances bentTop closeOracles fc2 _ _ out rfl rfl (show 3 ≤ 9 by decide)
    (show 0 < 3 by decide) h3 h4 h
  have hp : ∀ i < 3, 0 < entryOf out.harms i := fun i hi => by rw [hw i hi]; exact closeFreqs_pos i hi
  have hn : NoResonance 3 (entryOf out.harms) := fun i j k hi hj hk => by
    rw [hw i hi, hw j hj, hw k hk]
    exact closeFreqs_noRes i j k hi hj hk
  have hd : ∀ i j, i < 3 → j < 3 → i ≠ j → entryOf out.harms i ≠ entryOf out.harms j := fun i j hi hj hij => by
    rw [hw i hi, hw j hj]
    exact closeFreqs_distinct i j hij
  refine ⟨fc2, out, h3, h4, h, rfl, fun a _ => rfl, ?_, hp, hn, hd, fun n hs J => ?_⟩
  · rw [List.eq_nil_iff_forall_not_mem]
    rintro ⟨i, j, a⟩ hm
    obtain ⟨hji, hi, -, hd, -⟩ := (hc i j a).1 hm
    have hi : i < 3 := hi
    rw [hw i hi, hw j (by omega), abs_le, closeFreqs, closeFreqs] at hd
    have : (j : ℝ) + 1 ≤ i := by exact_mod_cast hji
    linarith [hd.1]
  · refine c103_exists 3 16 bentTop.primat (inertiaField bentTop.natom bentTop.pos bentTop.weights out.lxm)
      (entryOf out.harms) (cubicField bentTop.n3n bentTop.axes (fun _ _ _ => 1) (entryOf out.harms) out.lx)
      (zetaField bentTop.natom out.lxm)
      (quarticField bentTop.n3n bentTop.axes (fun _ _ _ _ => 1) (entryOf out.harms) out.lx)
      (fun a k l _ _ => zetaField_anti _ _ _ _ _) hp hn hd J n fun m hm => closeFreqs_alone n hs m ?_
    have e : ∀ f : Nat → Nat, ∑ i ∈ range 3, entryOf out.harms i * f i = ∑ i ∈ range 3, closeFreqs i * f i :=
      fun f => sum_congr rfl fun i hi => by rw [hw i (mem_range.1 hi)]
    rw [e, e] at hm
    exact hm

end Verif
