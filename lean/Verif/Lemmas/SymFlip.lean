import Verif.Lemmas.Flip
import Verif.Props.SymRun

/-!
# Reversing normal coordinates of symmetric tops

As `Verif.Lemmas.Flip`, for the computations made for symmetric tops and linear molecules. The two components of a
degenerate mode are reversed together.
-/

namespace Verif

open Finset

section
variable {σ : Nat → ℝ} (hσ : Signs σ)
include hσ

theorem reststNew_sym_flip (rotor : Rotor) (nvib i2vib : Nat) (z f3 : T3 ℝ) (w : Vec ℝ) :
    reststNew rotor nvib i2vib (fun i j x => σ i * σ j * z i j x) (fun i j k => σ i * σ j * σ k * f3 i j k) w =
      reststNew rotor nvib i2vib z f3 w := by
  simp only [reststNew, coriolis, fermi1, fermi2, coriolisAsym, coriolisSym, fermi2Asym, fermi2Sym, corTest, ferm1Test,
    ferm2Test, ferm2Test', abs_real, abs3 hσ, abs2 hσ]

theorem xcals_flip (rotor : Rotor) (f4 : T4 ℝ) (w : Vec ℝ) (f3 z : T3 ℝ) (B : Vec ℝ) (modes : List Mode)
    (f1 : List Fermi1) (f2 : List Fermi2) (A : Mat ℝ) (hp : ∀ p ∈ (Mode.partition modes).2.1, σ p.1 = σ p.2) :
    xcals rotor (fun i j k l => σ i * σ j * σ k * σ l * f4 i j k l) w (fun i j k => σ i * σ j * σ k * f3 i j k)
      (fun i j x => σ i * σ j * z i j x) B f1 f2 modes (fun k c => σ k * A k c) =
    xcals rotor f4 w f3 z B f1 f2 modes A := by
  have e4 : ∀ k l x, σ k * σ k * σ l * σ l * x = x := fun k l x => by
    rw [hσ.sq, one_mul, hσ.sq, one_mul]
  have e33 : ∀ k l m x y, σ k * σ k * σ m * x * (σ l * σ l * σ m * y) = x * y := fun k l m x y => by
    rw [hσ.sq, hσ.sq]
    linear_combination x * y * hσ.sq m
  have a1 : ∀ k x, |σ k * x| = |x| := fun k x => by rw [abs_mul, hσ.abs, one_mul]
  have hg : ∀ p, σ ((Mode.partition modes).2.1.getD p (0, 0)).1 = σ ((Mode.partition modes).2.1.getD p (0, 0)).2 := by
    intro p
    by_cases h : p < (Mode.partition modes).2.1.length
    · exact hp _ (getD_mem (0, 0) h)
    · rw [List.getD_eq_getElem?_getD, List.getElem?_eq_none (by omega), Option.getD_none]
  have e2 : makeGcnst (Mode.partition modes).1 (Mode.partition modes).2.1
      (fun i j k l => σ i * σ j * σ k * σ l * f4 i j k l) (fun i j k => σ i * σ j * σ k * f3 i j k) w
      (makeFermiChecks f1 f2) B 2 1 (xcalsIxyz rotor (Mode.partition modes).2.1 A) (fun i j x => σ i * σ j * z i j x) =
      makeGcnst (Mode.partition modes).1 (Mode.partition modes).2.1 f4 f3 w (makeFermiChecks f1 f2) B 2 1
        (xcalsIxyz rotor (Mode.partition modes).2.1 A) z := by
    unfold makeGcnst
    simp only [gOff, gOffValu, gOffValus, gDiag, gDiagValu, gDiagValus, sq3 hσ, sq2 hσ, e4]
    congr 1
    funext x p
    have h1 := hg p.1
    have h2 := hg p.2
    have g : ∀ (u : ℝ) (k l : Nat × Nat), σ k.1 = σ k.2 → σ l.1 = σ l.2 → ∀ y y' : ℝ,
        u * (σ k.1 * σ k.2 * y) * (σ l.1 * σ l.2 * y') = u * y * y' := by
      intro u k l hk hl y y'
      rw [← hk, ← hl, hσ.sq, hσ.sq, one_mul, one_mul]
    rw [g _ _ _ h1 h2]
  have e5 : xcalsIxyz rotor (Mode.partition modes).2.1 (fun k c => σ k * A k c) =
      xcalsIxyz rotor (Mode.partition modes).2.1 A := by
    simp only [xcalsIxyz, abs_real, a1]
  unfold xcals
  simp only [e5, e2]
  simp only [makeE0, e0kkl, e0klm, makeE2, makeE3, nondegNondeg, nnDiag, nnOff, nondegDeg, ndOff, degDeg, degDeg1, ddDiag,
    ddOff, ddValu, ddValus, xVal2, sq3 hσ, sq2 hσ, e4, e33]
  have ds : ∀ k, diagStep w (fun i j k => σ i * σ j * σ k * f3 i j k) (makeFermiChecks f1 f2).ifrm1 k =
      diagStep w f3 (makeFermiChecks f1 f2).ifrm1 k := by
    intro k
    funext a l
    simp only [diagStep, sq3 hσ]
  have es : e3Step (Mode.partition modes).1 ((Mode.partition modes).2.1.map (·.1)) w
      (fun i j k => σ i * σ j * σ k * f3 i j k) (makeFermiChecks f1 f2) =
      e3Step (Mode.partition modes).1 ((Mode.partition modes).2.1.map (·.1)) w f3 (makeFermiChecks f1 f2) := by
    funext a p
    simp only [e3Step, e3kst, e3sst, e3stu, sq3 hσ]
  simp only [ds, es]

theorem alphas_flip (rotor : Rotor) (B I w : Vec ℝ) (A : Mat ℝ) (z f3 : T3 ℝ) (modes : List Mode) (states : List State)
    (cor : List Coriolis) :
    alphas rotor B I w (fun k c => σ k * A k c) (fun i j x => σ i * σ j * z i j x)
      (fun i j k => σ i * σ j * σ k * f3 i j k) modes states cor = alphas rotor B I w A z f3 modes states cor := by
  have e : ∀ i j x y, σ j * x * (σ j * σ i * σ i * y) = x * y := fun i j x y => by
    linear_combination x * y * (hσ.sq j * (σ i * σ i) + hσ.sq i)
  have e' : ∀ i j x y, σ j * σ i * σ i * y * (σ j * x) = y * x := fun i j x y => by
    linear_combination x * y * (hσ.sq j * (σ i * σ i) + hσ.sq i)
  simp only [alphas, makeAlpha, alphaA1, alphaA2, alphaB1, alphaB2, corPerp, corReg, corFull, corFull', sq2 hσ, sq1 hσ, e, e']

end

/-! ### Mixing with any exact solver -/

/-- The order of the two levels is determined by the energies and the size of the coupling. -/
theorem mixLevels_determined {eigen eigen' : Eigen2 ℝ} (he : ∀ p v q, IsEigen2 p v q (eigen p v q))
    (he' : ∀ p v q, IsEigen2 p v q (eigen' p v q)) (swap : Bool) (s t : Nat) (v v' : ℝ) (hv : v' ^ 2 = v ^ 2)
    (eng : List ℝ) : mixLevels eigen' swap s t v' eng = mixLevels eigen swap s t v eng := by
  have key : ∀ {p v q : ℝ} {R : List ℝ × Mat ℝ}, IsEigen2 p v q R →
      ∃ l0 l1, (symmEigenDecomp R.1 R.2 false).1 = [l0, l1] ∧ l0 ≤ l1 ∧ l0 + l1 = p + q ∧ l0 * l1 = p * q - v ^ 2 ∧
        twoLevel p q v = if |(symmEigenDecomp R.1 R.2 false).2 1 0| < |(symmEigenDecomp R.1 R.2 false).2 0 0| then (l0, l1)
          else (l1, l0) := by
    rintro p v q R ⟨hl, hev, ho⟩
    obtain ⟨hlen, τ, hlt, hinj, -, hτ⟩ := c11_pairs_rearranged R.1 R.2 false
    have hsort := (c11_sorted R.1 R.2).2
    rw [hl] at hlt hinj hτ hlen
    generalize symmEigenDecomp R.1 R.2 false = D at hlen hτ hsort ⊢
    obtain ⟨v0, c0⟩ := hτ 0 (by omega)
    obtain ⟨v1, c1⟩ := hτ 1 (by omega)
    obtain ⟨l0, l1, hD⟩ := List.length_eq_two.1 hlen
    rw [hD] at v0 v1 hsort
    have hle : l0 ≤ l1 := by simpa using hsort
    obtain ⟨a1, a2, a3⟩ := hev _ _ v0.symm
    obtain ⟨b1, b2, b3⟩ := hev _ _ v1.symm
    have x0 : ∀ k, R.2 k (τ 0) = D.2 k 0 := fun k => (congrFun c0 k).symm
    have x1 : ∀ k, R.2 k (τ 1) = D.2 k 1 := fun k => (congrFun c1 k).symm
    have horth : D.2 0 0 * D.2 0 1 + D.2 1 0 * D.2 1 1 = 0 := by
      rw [← x0, ← x0, ← x1, ← x1]
      have h0 := hlt 0 (by omega)
      have h1 := hlt 1 (by omega)
      have hne : τ 0 ≠ τ 1 := fun h => absurd (hinj 0 1 (by omega) (by omega) h) (by omega)
      rcases (by omega : τ 0 = 0 ∧ τ 1 = 1 ∨ τ 0 = 1 ∧ τ 1 = 0) with ⟨e, e'⟩ | ⟨e, e'⟩ <;> rw [e, e']
      · exact ho
      · linarith
    rw [x0, x0] at a1 a2 a3
    rw [x1, x1] at b1 b2 b3
    have ht := eigen_two _ v _ l0 l1 _ _ _ _ a1 a2 a3 b1 b2 b3 horth hle
    obtain ⟨g1, g2, -⟩ := c38_levels p q v
    refine ⟨l0, l1, hD, hle, ?_, ?_, ht⟩
    · rw [← g1, ht]
      split <;> simp [add_comm]
    · rw [← g2, ht]
      split <;> simp [mul_comm]
  unfold mixLevels
  simp only [Option.bind_eq_bind]
  cases hs : eng[s]? with
  | none => rfl
  | some es =>
  cases ht : eng[t]? with
  | none => rfl
  | some et =>
  cases h0 : eng[0]? with
  | none => rfl
  | some e0 =>
  simp only [Option.bind_some]
  obtain ⟨l0, l1, d, hle, s1, s2, tl⟩ := key (he (es - e0) v (et - e0))
  obtain ⟨m0, m1, d', hle', s1', s2', tl'⟩ := key (he' (es - e0) v' (et - e0))
  generalize symmEigenDecomp (eigen (es - e0) v (et - e0)).1 (eigen (es - e0) v (et - e0)).2 false = D at d tl ⊢
  generalize symmEigenDecomp (eigen' (es - e0) v' (et - e0)).1 (eigen' (es - e0) v' (et - e0)).2 false = D' at d' tl' ⊢
  have tv : twoLevel (es - e0) (et - e0) v' = twoLevel (es - e0) (et - e0) v := by simp only [twoLevel, hv]
  rw [tv, tl] at tl'
  have same : m0 = l0 ∧ m1 = l1 ∧ (|D'.2 1 0| < |D'.2 0 0| ↔ |D.2 1 0| < |D.2 0 0|) ∨
      (m0 = l0 ∧ m1 = l0 ∧ l1 = l0) := by
    split at tl' <;> split at tl' <;> simp only [Prod.mk.injEq] at tl'
    · left; refine ⟨tl'.1.symm, tl'.2.symm, by tauto⟩
    · right; obtain ⟨a, b⟩ := tl'; refine ⟨?_, ?_, ?_⟩ <;> linarith
    · right; obtain ⟨a, b⟩ := tl'; refine ⟨?_, ?_, ?_⟩ <;> linarith
    · left; refine ⟨tl'.2.symm, tl'.1.symm, by tauto⟩
  simp only [d, d', List.getElem?_cons_zero, List.getElem?_cons_succ, Option.bind_some]
  rcases same with ⟨f0, f1, hb⟩ | ⟨f0, f1, e1⟩
  · rw [f0, f1]
    simp only [lt_real, abs_real, hb]
  · rw [f0, f1, e1]
    have hz : es = et ∧ l0 + e0 = es := by
      rw [e1] at s1 s2
      have : (es - et) ^ 2 + 4 * v ^ 2 = 0 := by
        linear_combination 4 * s2 - s1 * (2 * l0 + (es - e0) + (et - e0))
      have h1 : es - et = 0 := by nlinarith [sq_nonneg (es - et), sq_nonneg v]
      exact ⟨by linarith, by linarith⟩
    obtain ⟨rfl, hz⟩ := hz
    have st : ∀ a, eng[a]? = some es → setAt eng a (l0 + e0) = some eng := by
      intro a ha
      obtain ⟨h, hv⟩ := List.getElem?_eq_some_iff.1 ha
      rw [setAt, if_pos h, hz, ← hv, List.set_getElem_self]
    simp only [st _ hs, st _ ht, Option.bind_some, h0, ite_self]

theorem exec_determined {eigen eigen' : Eigen2 ℝ} (he : ∀ p v q, IsEigen2 p v q (eigen p v q))
    (he' : ∀ p v q, IsEigen2 p v q (eigen' p v q)) {σ : Nat → ℝ} (hσ : Signs σ) (fu ov co : List Nat) (f3 : T3 ℝ)
    (eng : List ℝ) (c : MixCall) :
    c.exec eigen' fu ov co (fun i j k => σ i * σ j * σ k * f3 i j k) eng = c.exec eigen fu ov co f3 eng := by
  have q : ∀ i j k (x a : ℝ), (σ i * σ j * σ k * x / a) ^ 2 = (x / a) ^ 2 := by
    intro i j k x a
    rcases hσ i with h | h <;> rcases hσ j with h' | h' <;> rcases hσ k with h'' | h'' <;> simp [h, h', h'', neg_div]
  have q' : ∀ i j k (x a : ℝ), (a * (σ i * σ j * σ k * x)) ^ 2 = (a * x) ^ 2 := by
    intro i j k x a
    rcases hσ i with h | h <;> rcases hσ j with h' | h' <;> rcases hσ k with h'' | h'' <;> simp [h, h', h'']
  cases c with
  | type1 i j d =>
    simp only [MixCall.exec, rsfrm1]
    congr 1; funext a; congr 1; funext b
    refine mixLevels_determined he he' _ _ _ _ _ ?_ _
    split
    · exact q _ _ _ _ _
    · exact q' _ _ _ _ _
  | type2 i j k =>
    simp only [MixCall.exec, rsfrm2]
    congr 1; funext a; congr 1; funext b
    exact mixLevels_determined he he' _ _ _ _ _ (q _ _ _ _ _) _

theorem correctedFunds_determined {eigen eigen' : Eigen2 ℝ} (he : ∀ p v q, IsEigen2 p v q (eigen p v q))
    (he' : ∀ p v q, IsEigen2 p v q (eigen' p v q)) {σ : Nat → ℝ} (hσ : Signs σ) (w : Vec ℝ) (x : Mat ℝ)
    (g : Option (Mat ℝ)) (r : Restst) (f3 : T3 ℝ) (e0 : ℝ) (init : List ℝ) :
    correctedFunds eigen' w x g r (fun i j k => σ i * σ j * σ k * f3 i j k) e0 init =
      correctedFunds eigen w x g r f3 e0 init := by
  unfold correctedFunds enrgy
  simp only [exec_determined he he' hσ]

end Verif
