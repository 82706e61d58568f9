import Verif.Spec.Threefold
import Verif.Spec.Perturb
import Verif.Lemmas.Whole

/-!
# The numbers a run of a symmetric top works with

Helpers for C105.
-/

namespace Verif

open Finset

section
variable {N : Nat} {one : List Nat} {two : List (Nat × Nat)} {s p w w' B : Nat → ℝ} {ax : Nat} {φ φ' ζ ζ' : Nat → Nat → Nat → ℝ}
  {ψ ψ' : Nat → Nat → Nat → Nat → ℝ}

theorem form3_same (h : ∀ i j k, i < N → j < N → k < N → φ' i j k = φ i j k) : form3 N φ' = form3 N φ := by
  funext u v t
  unfold form3
  exact sum_congr rfl fun i hi => sum_congr rfl fun j hj => sum_congr rfl fun k hk => by
    rw [h i j k (mem_range.1 hi) (mem_range.1 hj) (mem_range.1 hk)]

theorem form4_same (h : ∀ i j k l, i < N → j < N → k < N → l < N → ψ' i j k l = ψ i j k l) : form4 N ψ' = form4 N ψ := by
  funext u v t r
  unfold form4
  exact sum_congr rfl fun i hi => sum_congr rfl fun j hj => sum_congr rfl fun k hk => sum_congr rfl fun l hl => by
    rw [h i j k l (mem_range.1 hi) (mem_range.1 hj) (mem_range.1 hk) (mem_range.1 hl)]

theorem coriolisForm_same (h : ∀ i j a, i < N → j < N → a < 3 → ζ' i j a = ζ i j a) : coriolisForm N ζ' = coriolisForm N ζ := by
  funext u v x
  unfold coriolisForm
  exact sum_congr rfl fun i hi => sum_congr rfl fun j hj => sum_congr rfl fun a ha => by
    rw [h i j a (mem_range.1 hi) (mem_range.1 hj) (mem_range.1 ha)]

theorem Threefold.congr (h : Threefold N one two s p ax w φ ψ ζ B) (hw : ∀ i < N, w' i = w i)
    (h3 : ∀ i j k, i < N → j < N → k < N → φ' i j k = φ i j k)
    (h4 : ∀ i j k l, i < N → j < N → k < N → l < N → ψ' i j k l = ψ i j k l)
    (hz : ∀ i j a, i < N → j < N → a < 3 → ζ' i j a = ζ i j a) : Threefold N one two s p ax w' φ' ψ' ζ' B where
  modes := h.modes
  sense := h.sense
  sign := h.sign
  components := h.components
  axis := h.axis
  frequencies := fun t ht => by
    have m : ∀ i, i ∈ one ++ two.map (·.1) ++ two.map (·.2) → i < N := fun i hi => List.mem_range.1 (h.modes.mem_iff.1 hi)
    rw [hw _ (m _ (by simp only [List.mem_append, List.mem_map]; exact .inr ⟨t, ht, rfl⟩)),
      hw _ (m _ (by simp only [List.mem_append, List.mem_map]; exact .inl (.inr ⟨t, ht, rfl⟩)))]
    exact h.frequencies t ht
  rotation := h.rotation
  cubicTurn := by rw [form3_same h3]; exact h.cubicTurn
  cubicFlip := by rw [form3_same h3]; exact h.cubicFlip
  quarticTurn := by rw [form4_same h4]; exact h.quarticTurn
  quarticFlip := by rw [form4_same h4]; exact h.quarticFlip
  coriolisTurn := by rw [coriolisForm_same hz]; exact h.coriolisTurn
  coriolisFlip := by rw [coriolisForm_same hz]; exact h.coriolisFlip

theorem vibEnergy_congr {n : Fin N → Nat} {E0 E1 E2 : ℝ} (h : Osc.VibEnergy w φ ψ ζ B n E0 E1 E2) (hw : ∀ i < N, w' i = w i)
    (h3 : ∀ i j k, i < N → j < N → k < N → φ' i j k = φ i j k)
    (h4 : ∀ i j k l, i < N → j < N → k < N → l < N → ψ' i j k l = ψ i j k l)
    (hz : ∀ i j a, i < N → j < N → a < 3 → ζ' i j a = ζ i j a) : Osc.VibEnergy w' φ' ψ' ζ' B n E0 E1 E2 := by
  have e0 : (Osc.harmonic w' : Osc.Wave N → _) = Osc.harmonic w := by
    funext p; unfold Osc.harmonic; exact sum_congr rfl fun i _ => by rw [hw i i.2]
  have e1 : (Osc.cubic φ' : Osc.Wave N → _) = Osc.cubic φ := by
    funext p; unfold Osc.cubic
    exact congrArg _ (sum_congr rfl fun i _ => sum_congr rfl fun j _ => sum_congr rfl fun k _ => by rw [h3 i j k i.2 j.2 k.2])
  have e2 : (Osc.quartic ψ' : Osc.Wave N → _) = Osc.quartic ψ := by
    funext p; unfold Osc.quartic
    exact congrArg _ (sum_congr rfl fun i _ => sum_congr rfl fun j _ => sum_congr rfl fun k _ => sum_congr rfl fun l _ => by
      rw [h4 i j k l i.2 j.2 k.2 l.2])
  have ea : ∀ a ∈ range 3, (Osc.angular w' ζ' a : Osc.Wave N → _) = Osc.angular w ζ a := by
    intro a ha
    funext p; unfold Osc.angular
    exact sum_congr rfl fun k _ => sum_congr rfl fun l _ => by rw [hz k l a k.2 l.2 (mem_range.1 ha), hw k k.2, hw l l.2]
  have e3 : (Osc.coriolis w' ζ' B : Osc.Wave N → _) = Osc.coriolis w ζ B := by
    funext p; unfold Osc.coriolis
    exact congrArg _ (sum_congr rfl fun a ha => by rw [ea a ha])
  unfold Osc.VibEnergy
  rw [e0, e1, e2, e3]
  exact h

end

/-- The numbers a completed run works with in terms of its input and output, for all kinds of molecules; `w` are the
frequencies. -/
theorem field_parts {ι : Type} {s : SpectroIn ℝ} {m : ModesOut ℝ ι} {f3x : T3 ℝ} {f4x : T4 ℝ} {F4 : F4qcm ℝ}
    {lxm lx : List (List ℝ)} (hn : s.n3n = 3 * s.natom) (hv : s.nvib ≤ s.n3n) (h0 : 0 < s.nvib)
    (h3 : Symm3 s.n3n f3x) (h4 : Symm4 s.n3n f4x)
    (hF : force4 s.n3n (rot4th s.n3n s.natom s.axes f4x) m.lx s.nvib (vecOf m.freq) = some F4)
    (hvec : toVec s.n3n s.n3n m.lxm = some lxm) (hvec' : toVec s.n3n s.n3n m.lx = some lx)
    {w : Nat → ℝ} (hw : ∀ i < s.nvib, vecOf m.freq i = w i) :
    (∀ i j k, i < s.nvib → j < s.nvib → k < s.nvib →
      f3Of (force3 s.n3n (rot3rd s.n3n s.natom s.axes f3x) m.lx s.nvib (vecOf m.freq)) i j k =
        cubicField s.n3n s.axes f3x w lx i j k) ∧
    (∀ i j k l, i < s.nvib → j < s.nvib → k < s.nvib → l < s.nvib →
      f4Of F4 i j k l = quarticField s.n3n s.axes f4x w lx i j k l) ∧
    (∀ i j x, i < s.nvib → j < s.nvib → x < 3 → makeZmat s.nvib s.natom m.lxm i j x = zetaField s.natom lxm i j x) ∧
    ∀ k p q, k < s.nvib → p < 3 → q < 3 →
      wilsonA s.nvib s.natom s.pos m.lxm s.weights k (pairIdx p q) = inertiaField s.natom s.pos s.weights lxm k p q := by
  have hlx : ∀ i < s.nvib, ∀ r < s.n3n, applyAxes s.axes (colOf m.lx i) r = applyAxes s.axes (columnEntry lx i) r := by
    intro i hi r hr
    rw [hn] at hr
    refine applyAxes_congr (natom := s.natom) (fun r hr => ?_) r hr
    exact (columnEntry_toVec hvec' _ _ (by omega) (by omega)).symm
  refine ⟨?_, ?_, ?_, ?_⟩
  · intro i j k hi hj hk
    have hsym : Symm3 s.n3n (rot3rd s.n3n s.natom s.axes f3x) := by
      rw [hn] at h3 ⊢
      exact c08_symmetric _ _ _ h3
    rw [f3Of, (c13_contraction _ _ _ _ _ hsym hv).2 i j k hi hj hk, Option.getD_some, cubicField, hw i hi, hw j hj,
      hw k hk]
    congr 1
    rw [show form3 s.n3n (rot3rd s.n3n s.natom s.axes f3x) (colOf m.lx i) (colOf m.lx j) (colOf m.lx k) =
      form3 s.n3n f3x (applyAxes s.axes (colOf m.lx i)) (applyAxes s.axes (colOf m.lx j))
        (applyAxes s.axes (colOf m.lx k)) by rw [hn]; exact c08_form ..]
    exact form3_congr (hlx i hi) (hlx j hj) (hlx k hk)
  · intro i j k l hi hj hk hl
    have hsym : Symm4 s.n3n (rot4th s.n3n s.natom s.axes f4x) := by
      rw [hn] at h4 ⊢
      exact c09_symmetric _ _ _ h4
    obtain ⟨t, ht, -, hg⟩ := c14_contraction s.n3n s.nvib _ m.lx (vecOf m.freq) hsym hv h0
    obtain rfl : t = F4 := Option.some.inj (ht.symm.trans hF)
    rw [f4Of, hg i j k l hi hj hk hl, Option.getD_some, quarticField, hw i hi, hw j hj, hw k hk, hw l hl]
    congr 1
    rw [show form4 s.n3n (rot4th s.n3n s.natom s.axes f4x) (colOf m.lx i) (colOf m.lx j) (colOf m.lx k) (colOf m.lx l) =
      form4 s.n3n f4x (applyAxes s.axes (colOf m.lx i)) (applyAxes s.axes (colOf m.lx j))
        (applyAxes s.axes (colOf m.lx k)) (applyAxes s.axes (colOf m.lx l)) by rw [hn]; exact c09_form ..]
    exact form4_congr (hlx i hi) (hlx j hj) (hlx k hk) (hlx l hl)
  · intro i j x hi hj hx
    rw [c15_angular _ _ _ _ _ _ hi hj hx, zetaField]
    unfold angularForm
    refine sum_congr rfl fun a ha => ?_
    have ha := mem_range.1 ha
    have e : ∀ k < s.nvib, ∀ y < 3, columnEntry lxm k (3 * a + y) = colOf m.lxm k (3 * a + y) := fun k hk y hy =>
      columnEntry_toVec hvec _ _ (by omega) (by omega)
    rw [e i hi _ (Nat.mod_lt _ (by omega)), e i hi _ (Nat.mod_lt _ (by omega)), e j hj _ (Nat.mod_lt _ (by omega)),
      e j hj _ (Nat.mod_lt _ (by omega))]
  · intro k p q hk hp hq
    exact wilsonA_field _ _ _ hn _ _ _ _ hvec _ _ _ hk (by omega) hp hq

end Verif
