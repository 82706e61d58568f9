import Verif.Model.Sextic
import Verif.Lemmas.Loop
import Verif.Props.Quartic
import Mathlib.Tactic.IntervalCases
import Mathlib.Tactic.FinCases
import Mathlib.Data.Fintype.Perm

/-! C46: the sextic distortion constants. -/

namespace Verif

/-- The S-reduced constants add up to `P` when `phi060` is what remains of `P`. -/
theorem sextic_s (P a b c l m : ℝ) :
    (a - l) + (b + Arith.lit 6.0 * l - Arith.lit 3.0 * m) +
      (c - Arith.lit 5.0 * l + Arith.lit 10.0 * m) + ((P - c - b - a) - Arith.lit 7.0 * m) = P := by
  simp only [lit_real]; push_cast; norm_num only; ring

/-- The A-reduced constants add up to `P` when `phi060` is what remains of `P`. -/
theorem sextic_a (P a b c e j : ℝ) :
    (a + Arith.lit 2.0 * e) + j +
      (c + Arith.lit 10.0 * b / Arith.lit 3.0 - Arith.lit 30.0 * e - Arith.lit 10.0 * j / Arith.lit 3.0) +
      ((P - c - b - a) - Arith.lit 7.0 * b / Arith.lit 3.0 + Arith.lit 28.0 * e +
        Arith.lit 7.0 * j / Arith.lit 3.0) = P := by
  simp only [lit_real]; push_cast; norm_num only; ring

/-- C46, asymmetric tops: the four diagonal constants of each reduction add up to the sextic coefficient
of principal axis 0, the z axis of the representation. (`mu`, `nu` and `lamda` cancel whatever they
are.) -/
theorem c46_sums (nvib nfreq : Nat) (rotcon primat freq : Vec ℝ) (wila : Mat ℝ) (zmat f3 : T3 ℝ) :
    let S := Sextic.new .asymmTop nvib nfreq rotcon primat freq wila zmat f3
    let φ := sexticScc .asymmTop nvib nfreq rotcon primat freq wila zmat f3
    S.phij + S.phijk + S.phikj + S.phik = φ 0 0 0 ∧ S.hj + S.hjk + S.hkj + S.hk = φ 0 0 0 :=
  ⟨sextic_a _ _ _ _ _ _, sextic_s _ _ _ _ _ _⟩

/-- C46, symmetric tops: the four diagonal constants of the S reduction add up to the sextic coefficient
of axis 2, the unique axis. -/
theorem c46_sums_sym (rotor : Rotor) (hr : rotor = .oblateSymmTop ∨ rotor = .prolateSymmTop)
    (nvib nfreq : Nat) (rotcon primat freq : Vec ℝ) (wila : Mat ℝ) (zmat f3 : T3 ℝ) :
    let S := Sextic.new rotor nvib nfreq rotcon primat freq wila zmat f3
    S.hj + S.hjk + S.hkj + S.hk = sexticScc rotor nvib nfreq rotcon primat freq wila zmat f3 2 2 2 := by
  rcases hr with rfl | rfl
  · exact sextic_s _ _ _ _ _ _
  · exact sextic_s _ _ _ _ _ _

variable {α : Type} [Arith α]

/-- `scc` is symmetric, for any arithmetic: the value only depends on which axes occur how often. -/
theorem scc_symm (p : SccIn α) (rotor : Rotor) (maxcor nfreq : Nat)
    (hm : maxcor = if rotor.spectroLinear then 2 else 3) {x y z : Nat} (hx : x < 3) (hy : y < 3)
    (hz : z < 3) : scc p rotor maxcor nfreq y x z = scc p rotor maxcor nfreq x y z ∧
      scc p rotor maxcor nfreq x z y = scc p rotor maxcor nfreq x y z := by
  unfold scc
  generalize (if nfreq = 6 then { p with rotcon := fun i => p.rotcon (2 - i) } else p) = q
  unfold sccWrites
  generalize sccDiag q maxcor (rotor == Rotor.linear) = D
  generalize sccPair q = P
  generalize sccXyz q = X
  cases h : rotor.spectroLinear
  · rw [h] at hm
    simp only [Bool.false_eq_true, if_false] at hm ⊢
    subst hm
    interval_cases x <;> interval_cases y <;> interval_cases z <;> exact ⟨rfl, rfl⟩
  · rw [h] at hm
    simp only [if_true] at hm ⊢
    subst hm
    interval_cases x <;> interval_cases y <;> interval_cases z <;> exact ⟨rfl, rfl⟩

/-- C46: the tensor of sextic coefficients is invariant under every permutation of its three indices, for
any arithmetic. -/
theorem c46_symmetric (rotor : Rotor) (nvib nfreq : Nat) (rotcon primat freq : Vec α) (wila : Mat α)
    (zmat f3 : T3 α) (σ : Equiv.Perm (Fin 3)) (v : Fin 3 → Nat) (hv : ∀ i, v i < 3) :
    let φ := sexticScc rotor nvib nfreq rotcon primat freq wila zmat f3
    φ (v (σ 0)) (v (σ 1)) (v (σ 2)) = φ (v 0) (v 1) (v 2) := by
  intro φ
  have h1 : ∀ {x y z : Nat}, x < 3 → y < 3 → z < 3 → φ y x z = φ x y z ∧ φ x z y = φ x y z :=
    fun hx hy hz => scc_symm _ rotor _ nfreq rfl hx hy hz
  have key : ∀ a b c : Fin 3, a ≠ b → a ≠ c → b ≠ c → φ (v a) (v b) (v c) = φ (v 0) (v 1) (v 2) := by
    have h01 := h1 (hv 0) (hv 1) (hv 2)
    have h02 := h1 (hv 0) (hv 2) (hv 1)
    have h10 := h1 (hv 1) (hv 0) (hv 2)
    have h12 := h1 (hv 1) (hv 2) (hv 0)
    intro a b c
    fin_cases a <;> fin_cases b <;> fin_cases c <;> intro hab hac hbc <;>
      first | exact absurd rfl hab | exact absurd rfl hac | exact absurd rfl hbc | skip
    · rfl
    · exact h01.2
    · exact h01.1
    · exact h10.2.trans h01.1
    · exact h02.1.trans h01.2
    · exact h12.1.trans (h10.2.trans h01.1)
  exact key _ _ _ (by simp) (by simp) (by simp)

/-- C46: the relabelled tensor holds the same values under the new labels, for each of the six
representations, so it is symmetric as well. -/
theorem c46_relabelled (s : T3 α) (irep : Nat) (hi : irep < 6) {x y z : Nat} (hx : x < 3) (hy : y < 3)
    (hz : z < 3) : makePhi 3 (princCart irep).1 s x y z =
      s ((princCart irep).2 x) ((princCart irep).2 y) ((princCart irep).2 z) := by
  interval_cases irep
  all_goals
    interval_cases x <;> interval_cases y <;> interval_cases z <;> rfl

example (φ : T3 ℝ) (hφ : φ = sexticScc .asymmTop 1 9 (fun i => (3 - i : ℝ)) (fun _ => 1) (fun _ => 2)
    (fun _ _ => 1) (fun _ _ _ => 0) (fun _ _ _ => 6)) : φ 2 0 1 = φ 0 1 2 ∧ φ 1 1 0 = φ 0 1 1 := by
  subst hφ
  exact ⟨c46_symmetric .asymmTop 1 9 _ _ _ _ _ _ (finRotate 3).symm ![0, 1, 2] (by decide),
    c46_symmetric .asymmTop 1 9 _ _ _ _ _ _ (finRotate 3) ![0, 1, 1] (by decide)⟩

end Verif
