import Verif.Props.Whole
import Verif.Props.SymRun
import Verif.Lemmas.PerturbList

/-!
# The reported energies solve the vibrational Schrödinger equation to second order (C102)
-/

namespace Verif

open Finset Osc

variable {ι : Type}

theorem noRes_regular {N : Nat} {w : Nat → ℝ} (hp : ∀ i < N, 0 < w i) (hw : NoResonance N w) :
    Regular (fun _ _ _ => False) N w := by
  refine ⟨fun k l hk hl _ => ?_, fun k l m hk hl hm _ _ _ => ?_⟩
  · have a := hp k hk
    have b := hp l hl
    have c := (hw k k l hk hk hl).2
    exact ⟨b.ne', by linarith, fun e => c (by linarith)⟩
  · have hl' : l < N := by omega
    have a := hp k hk
    have b := hp l hl'
    have c := hp m hm
    refine ⟨by linarith, fun e => (hw k m l hk hm hl').2 (by linarith), fun e => (hw k l m hk hl' hm).2 (by linarith),
      fun e => (hw l m k hl' hm hk).2 (by linarith)⟩

/-- The `x` and the constant of `xcalc`, when no resonance is listed. -/
theorem xcalc_spec {N : Nat} {w : Nat → ℝ} (F4 : T4 ℝ) (F3 zeta : T3 ℝ) (B : Vec ℝ) (modes : List Mode)
    (hp : ∀ i < N, 0 < w i) (hw : NoResonance N w) (hm : nonDeg modes = List.range N) :
    (∀ k l, l ≤ k → k < N → (xcalc N F4 w F3 zeta B modes [] []).1 k l =
      xSpec (fun _ _ _ => False) N w F3 F4 zeta B k l) ∧
    (xcalc N F4 w F3 zeta B modes [] []).2 = e0Spec (fun _ _ _ => False) (List.range N) w F3 F4 := by
  have hL : Listed [] [] = fun _ _ _ => False := by
    funext a b c
    simp [Listed]
  have hreg := noRes_regular hp hw
  refine ⟨fun k l hl hk => ?_, ?_⟩
  · unfold xSpec
    rcases hl.eq_or_lt with rfl | hl
    · rw [if_pos rfl, c31_diagonal _ _ _ _ _ _ _ _ _ _ hk (fun m hm _ => hreg.1 l m hk hm id), hL]
    · rw [if_neg (by omega), max_eq_left hl.le, min_eq_right hl.le, (c31_offdiagonal _ _ _ _ _ _ _ _ _ _ _ hl hk
        (fun m _ => by simp [OneOfThree, hL]) fun m hm _ _ _ => hreg.2 k l m hk hl hm id id id).1, hL]
  · rw [c32_partial N F4 w F3 zeta B modes [] [] (fun _ _ _ _ _ _ => by rw [hL]; exact id) (by
      rw [hm]
      refine ⟨fun a ha b hb _ => ?_, fun a ha b hb c hc hab _ => ?_⟩
      · exact (hreg.1 a b (List.mem_range.1 ha) (List.mem_range.1 hb) id).2
      · exact hreg.2 a b c (List.mem_range.1 ha) hab (List.mem_range.1 hc) id id id), hL, hm]

/-- C102, energies: the anharmonic constants `x` and the constant `e₀` computed from frequencies, cubic, quartic, Coriolis
and rotational constants give the energy of every vibrational state to second order of perturbation theory: whenever
`E₀ + ε E₁ + ε² E₂` is an energy of the vibrational Hamiltonian with a wave function which for `ε = 0` is the
harmonic-oscillator state with `n_i` quanta in mode `i`, then `E₀ + E₁ + E₂` is
`e₀ + Σ w_i (n_i + ½) + Σ_{l ≤ k} x_kl (n_k + ½) (n_l + ½)` up to the term `-½ Σ_a B_a Σ_{l < k} ζ_kl²`, which is the
same for all states and which the code leaves out. -/
theorem c102_levels (N : Nat) (F4 : T4 ℝ) (w : Vec ℝ) (F3 zeta : T3 ℝ) (B : Vec ℝ) (modes : List Mode)
    (hm : nonDeg modes = List.range N) (h3 : Symm3 N F3) (h4 : Symm4 N F4)
    (hz : ∀ a k l, k < N → l < N → zeta k l a = -zeta l k a) (hp : ∀ i < N, 0 < w i) (hw : NoResonance N w)
    (n : Nat → Nat) (E0 E1 E2 : ℝ) (h : VibEnergy w F3 F4 zeta B (fun i : Fin N => n i) E0 E1 E2) :
    let x := (xcalc N F4 w F3 zeta B modes [] []).1
    let e0 := (xcalc N F4 w F3 zeta B modes [] []).2
    E0 = ∑ i ∈ range N, w i * ((n i : ℝ) + 1 / 2) ∧ E1 = 0 ∧
    E2 = e0 + ∑ k ∈ range N, ∑ l ∈ range (k + 1), x k l * ((n k : ℝ) + 1 / 2) * ((n l : ℝ) + 1 / 2)
      - 1 / 2 * ∑ k ∈ range N, ∑ l ∈ range k, ∑ a ∈ range 3, B a * zeta k l a ^ 2 := by
  intro x e0
  obtain ⟨hx, he⟩ := xcalc_spec F4 F3 zeta B modes hp hw hm
  obtain ⟨a0, a1, a2⟩ := vib_formula h3 h4 hz hp hw h
  refine ⟨a0, a1, ?_⟩
  rw [a2, show e0 = _ from he, sum_congr rfl fun k hk => sum_congr rfl fun l hl => by
    rw [← hx k l (by have := mem_range.1 hl; omega) (mem_range.1 hk)]]
  ring

/-- C102: the energy to which `c102_levels` refers exists if no other state of the harmonic oscillators has the same
energy. -/
theorem c102_exists (N : Nat) (w : Vec ℝ) (F3 zeta : T3 ℝ) (F4 : T4 ℝ) (B : Vec ℝ) (n : Nat → Nat)
    (hn : ∀ m : Nat → Nat, ∑ i ∈ range N, w i * m i = ∑ i ∈ range N, w i * n i → ∀ i < N, m i = n i) :
    ∃ E0 E1 E2, VibEnergy w F3 F4 zeta B (fun i : Fin N => n i) E0 E1 E2 := by
  refine vib_exists _ _ _ _ _ _ fun m hm e => hm ?_
  let M : Nat → Nat := fun i => if h : i < N then m ⟨i, h⟩ else 0
  have hM : ∀ i : Fin N, M i = m i := fun i => by simp [M]
  have key : ∑ i ∈ range N, w i * M i = ∑ i ∈ range N, w i * n i := by
    rw [← Fin.sum_univ_eq_sum_range (fun i => w i * (M i : ℝ)), ← Fin.sum_univ_eq_sum_range (fun i => w i * (n i : ℝ))]
    simp only [level, toInt, Int.cast_natCast, mul_add, sum_add_distrib] at e
    simp only [hM]
    linarith
  funext i
  rw [← hM, hn M key i i.2]

/-- Three frequencies so close to each other that no combination of them is another one of them. -/
noncomputable def closeFreqs : Nat → ℝ := fun i => 1500 - 250 * i

theorem closeFreqs_noRes : NoResonance 3 closeFreqs := by
  intro i j k hi hj hk
  unfold closeFreqs
  interval_cases i <;> interval_cases j <;> interval_cases k <;> norm_num

theorem closeFreqs_pos (i : Nat) (hi : i < 3) : 0 < closeFreqs i := by
  unfold closeFreqs
  interval_cases i <;> norm_num

/-- The ground state and the states with one quantum are alone at their energies. -/
theorem closeFreqs_alone (n : Nat → Nat) (hn : n 0 + n 1 + n 2 ≤ 1) (m : Nat → Nat)
    (h : ∑ i ∈ range 3, closeFreqs i * m i = ∑ i ∈ range 3, closeFreqs i * n i) : ∀ i < 3, m i = n i := by
  have h' : 6 * m 0 + 5 * m 1 + 4 * m 2 = 6 * n 0 + 5 * n 1 + 4 * n 2 := by
    have : (6 * m 0 + 5 * m 1 + 4 * m 2 : ℝ) = 6 * n 0 + 5 * n 1 + 4 * n 2 := by
      simp only [sum_range_succ, range_zero, sum_empty, closeFreqs] at h
      push_cast at h
      linarith
    exact_mod_cast this
  obtain ⟨a, b, c⟩ : m 0 ≤ 1 ∧ m 1 ≤ 1 ∧ m 2 ≤ 1 := by omega
  obtain ⟨d, e, f⟩ : n 0 ≤ 1 ∧ n 1 ≤ 1 ∧ n 2 ≤ 1 := by omega
  have : m 0 = n 0 ∧ m 1 = n 1 ∧ m 2 = n 2 := by
    generalize m 0 = m0, m 1 = m1, m 2 = m2, n 0 = n0, n 1 = n1, n 2 = n2 at *
    interval_cases m0 <;> interval_cases m1 <;> interval_cases m2 <;> omega
  intro i hi
  interval_cases i
  · exact this.1
  · exact this.2.1
  · exact this.2.2

/-- The hypotheses of `c102_levels` and `c102_exists` are met by three coupled modes, for the ground state and the states
with one quantum; the anharmonic constants are not zero. -/
example (n : Nat → Nat) (hn : n 0 + n 1 + n 2 ≤ 1) : ∃ (F3 : T3 ℝ) (F4 : T4 ℝ) (zeta : T3 ℝ) (E0 E1 E2 : ℝ),
    nonDeg [.i1 0, .i1 1, .i1 2] = List.range 3 ∧ Symm3 3 F3 ∧ Symm4 3 F4 ∧
    (∀ a k l, k < 3 → l < 3 → zeta k l a = -zeta l k a) ∧ (∀ i < 3, 0 < closeFreqs i) ∧ NoResonance 3 closeFreqs ∧
    VibEnergy closeFreqs F3 F4 zeta (fun _ => 10) (fun i : Fin 3 => n i) E0 E1 E2 ∧
    F3 0 1 2 = 20 ∧ zeta 1 0 2 = 1 / 2 := by
  obtain ⟨E0, E1, E2, h⟩ := c102_exists 3 closeFreqs (fun _ _ _ => 20) (fun k l _ => ((k : ℝ) - l) / 2) (fun _ _ _ _ => 5)
    (fun _ => 10) n (closeFreqs_alone n hn)
  refine ⟨_, _, _, E0, E1, E2, rfl, fun _ _ _ _ _ _ => ⟨rfl, rfl⟩, fun _ _ _ _ _ _ _ _ => ⟨rfl, rfl, rfl⟩,
    fun a k l _ _ => by ring, closeFreqs_pos, closeFreqs_noRes, h, rfl, by norm_num⟩

theorem cubicField_symm {n : Nat} {f : Nat → Nat → Nat → ℝ} (h : Symm3 n f) (axes : Nat → Nat → ℝ) (w : Nat → ℝ)
    (lx : List (List ℝ)) (N : Nat) : Symm3 N (cubicField n axes f w lx) := by
  intro a b c _ _ _
  unfold cubicField
  constructor
  · rw [form3_swap12 _ _ _ _ _ h, show w a * w b * w c = w b * w a * w c by ring]
  · rw [form3_swap23 _ _ _ _ _ h, show w a * w b * w c = w a * w c * w b by ring]

theorem quarticField_symm {n : Nat} {f : Nat → Nat → Nat → Nat → ℝ} (h : Symm4 n f) (axes : Nat → Nat → ℝ) (w : Nat → ℝ)
    (lx : List (List ℝ)) (N : Nat) : Symm4 N (quarticField n axes f w lx) := by
  intro a b c d _ _ _ _
  unfold quarticField
  refine ⟨?_, ?_, ?_⟩
  · rw [form4_swap12 _ _ _ _ _ _ h, show w a * w b * w c * w d = w b * w a * w c * w d by ring]
  · rw [form4_swap23 _ _ _ _ _ _ h, show w a * w b * w c * w d = w a * w c * w b * w d by ring]
  · rw [form4_swap34 _ _ _ _ _ _ h, show w a * w b * w c * w d = w a * w b * w d * w c by ring]

theorem zetaField_anti (natom : Nat) (lxm : List (List ℝ)) (k l x : Nat) :
    zetaField natom lxm k l x = -zetaField natom lxm l k x := by
  unfold zetaField angularForm
  rw [← sum_neg_distrib]
  exact sum_congr rfl fun i _ => by ring

theorem unorderedSum_range (f : Nat → Nat → ℝ) (hf : ∀ a b, f a b = f b a) (N : Nat) :
    unorderedSum f (List.range N) = ∑ k ∈ range N, ∑ l ∈ range (k + 1), f k l := by
  have app : ∀ (L : List Nat) (a : Nat), unorderedSum f (L ++ [a]) = unorderedSum f L + (L.map fun b => f b a).sum + f a a := by
    intro L a
    induction L with
    | nil => simp [unorderedSum]
    | cons b L ih =>
      simp only [List.cons_append, unorderedSum, ih, List.map_append, List.sum_append, List.map_cons, List.sum_cons,
        List.map_nil, List.sum_nil]
      ring
  induction N with
  | zero => rfl
  | succ N ih =>
    rw [List.range_succ, app, ih, sum_range_succ, sum_range_succ _ N, ← add_assoc]
    congr 2
    rw [← List.sum_toFinset _ List.nodup_range, List.toFinset_range]
    exact sum_congr rfl fun l _ => hf l N

theorem xSpec_symm (R : Nat → Nat → Nat → Prop) (n : Nat) (w : Nat → ℝ) (F3 : Nat → Nat → Nat → ℝ)
    (F4 : Nat → Nat → Nat → Nat → ℝ) (zeta : Nat → Nat → Nat → ℝ) (B : Nat → ℝ) (k l : Nat) :
    xSpec R n w F3 F4 zeta B k l = xSpec R n w F3 F4 zeta B l k := by
  unfold xSpec
  by_cases h : k = l
  · rw [h]
  · rw [if_neg h, if_neg (Ne.symm h), max_comm, min_comm]

/-- The state with `c` quanta in mode `i`. -/
def quanta (i c j : Nat) : Nat := if j = i then c else 0

theorem single_sum (x : Nat → Nat → ℝ) (hx : ∀ a b, x a b = x b a) (w : Nat → ℝ) (N i : Nat) (hi : i < N) :
    (∑ k ∈ range N, w k * ((quanta i 1 k : ℝ) + 1 / 2) - ∑ k ∈ range N, w k * ((quanta i 0 k : ℝ) + 1 / 2)) +
    (∑ k ∈ range N, ∑ l ∈ range (k + 1), x k l * ((quanta i 1 k : ℝ) + 1 / 2) * ((quanta i 1 l : ℝ) + 1 / 2) -
      ∑ k ∈ range N, ∑ l ∈ range (k + 1), x k l * ((quanta i 0 k : ℝ) + 1 / 2) * ((quanta i 0 l : ℝ) + 1 / 2)) =
    w i + 2 * x i i + 1 / 2 * ∑ j ∈ (range N).erase i, x i j := by
  have q0 : ∀ k, (quanta i 0 k : ℝ) = 0 := fun k => by simp [quanta]
  have q1 : ∀ k, (quanta i 1 k : ℝ) = if k = i then 1 else 0 := fun k => by
    unfold quanta; split <;> simp
  simp only [q0, q1]
  rw [← sum_sub_distrib, ← sum_sub_distrib, sum_congr rfl (g := fun k => if k = i then w k else 0) (fun k _ => by
    split <;> ring), sum_ite_eq', if_pos (mem_range.2 hi)]
  have full : ∑ k ∈ range N, ∑ l ∈ range (k + 1), (if k = i ∧ l = i then 2 * x k l else if k = i ∨ l = i then x k l / 2
      else 0) = 2 * x i i + 1 / 2 * ∑ j ∈ (range N).erase i, x i j := by
    have hs : ∀ k ∈ range N, ∑ l ∈ range (k + 1), (if k = i ∧ l = i then 2 * x k l else if k = i ∨ l = i then x k l / 2
        else 0) = (if k = i then 2 * x i i + ∑ l ∈ range i, x i l / 2 else 0) + if i < k then x i k / 2 else 0 := by
      intro k _
      rcases lt_trichotomy i k with h | rfl | h
      · rw [if_neg (by omega), if_pos h, zero_add, sum_eq_single i]
        · rw [if_neg (by omega), if_pos (.inr rfl), hx]
        · intro b _ hb
          rw [if_neg (by omega), if_neg (by omega)]
        · intro hc
          exact absurd (mem_range.2 (by omega)) hc
      · rw [if_pos rfl, if_neg (by omega), add_zero, sum_range_succ, if_pos ⟨rfl, rfl⟩, add_comm]
        congr 1
        refine sum_congr rfl fun l hl => ?_
        have := mem_range.1 hl
        rw [if_neg (by omega), if_pos (.inl rfl)]
      · rw [if_neg (by omega), if_neg (by omega), add_zero]
        refine sum_eq_zero fun l hl => ?_
        have := mem_range.1 hl
        rw [if_neg (by omega), if_neg (by omega)]
    rw [sum_congr rfl hs, sum_add_distrib, sum_ite_eq', if_pos (mem_range.2 hi), add_assoc]
    congr 1
    rw [mul_sum, ← sum_filter]
    rw [show (range N).erase i = range i ∪ (range N).filter fun k => i < k by
      ext k
      simp only [mem_erase, mem_union, mem_range, mem_filter]
      omega, sum_union (by
      rw [disjoint_left]
      intro k hk
      have := mem_range.1 hk
      simp only [mem_filter, not_and]
      omega)]
    congr 1 <;> exact sum_congr rfl fun k _ => by ring
  rw [add_assoc, ← full]
  congr 1
  refine sum_congr rfl fun k _ => ?_
  rw [← sum_sub_distrib]
  refine sum_congr rfl fun l _ => ?_
  by_cases hk : k = i <;> by_cases hl : l = i <;> simp [hk, hl] <;> ring

/-- C102, run: let a run of an asymmetric top have no Fermi resonances, positive frequencies and no exact resonance. Then
the fundamental reported for mode `i` is, to second order of perturbation theory for the vibrational Hamiltonian of the
molecule, the difference between the energy of the state with one quantum in mode `i` and that of the ground state; and
the reported zero-point energy is the energy of the ground state but for `½ Σ_a B_a Σ_{l < k} ζ_kl²`. -/
theorem c102_run (s : SpectroIn ℝ) (o : Oracles ℝ ι) (fc2 : Mat ℝ) (f3x : T3 ℝ) (f4x : T4 ℝ) (out : Output ℝ ι)
    (hr : s.rotor = .asymmTop) (hn : s.n3n = 3 * s.natom) (hv : s.nvib ≤ s.n3n) (h0 : 0 < s.nvib)
    (h3 : Symm3 s.n3n f3x) (h4 : Symm4 s.n3n f4x) (h : run s o (.quartic fc2 f3x f4x) = some out)
    (he : ∀ p v q, IsEigen2 p v q (o.eigen2 p v q))
    (hnf : out.resonances.fermi1 = [] ∧ out.resonances.fermi2 = [])
    (hp : ∀ i < s.nvib, 0 < entryOf out.harms i) (hw : NoResonance s.nvib (entryOf out.harms)) :
    let w := entryOf out.harms
    let φ := cubicField s.n3n s.axes f3x w out.lx
    let ψ := quarticField s.n3n s.axes f4x w out.lx
    let ζ := zetaField s.natom out.lxm
    ∀ G0 G1 G2, VibEnergy w φ ψ ζ s.rotcon (fun _ : Fin s.nvib => 0) G0 G1 G2 →
    out.zpt = G0 + G1 + G2 + 1 / 2 * ∑ k ∈ range s.nvib, ∑ l ∈ range k, ∑ a ∈ range 3, s.rotcon a * ζ k l a ^ 2 ∧
    ∀ i < s.nvib, ∀ E0 E1 E2,
      VibEnergy w φ ψ ζ s.rotcon (fun j : Fin s.nvib => if (j : Nat) = i then 1 else 0) E0 E1 E2 →
      out.funds[i]? = some (E0 + E1 + E2 - (G0 + G1 + G2)) := by
  intro w φ ψ ζ G0 G1 G2 hG
  have hL : Listed out.resonances.fermi1 out.resonances.fermi2 = fun _ _ _ => False := by
    rw [hnf.1, hnf.2]
    funext a b c
    simp [Listed]
  have hreg := noRes_regular hp hw
  have hz := c80_zero_point s o fc2 f3x f4x out hr hn hv h0 h3 h4 h he hnf hreg
  have hf := c80_fundamentals s o fc2 f3x f4x out hr hn hv h0 h3 h4 h (by rw [hL]; exact hreg)
  rw [hL] at hf
  have S3 := cubicField_symm h3 s.axes w out.lx s.nvib
  have S4 := quarticField_symm h4 s.axes w out.lx s.nvib
  have AZ : ∀ a k l, k < s.nvib → l < s.nvib → ζ k l a = -ζ l k a := fun a k l _ _ => zetaField_anti _ _ _ _ _
  have xs := xSpec_symm (fun _ _ _ => False) s.nvib w φ ψ ζ s.rotcon
  obtain ⟨g0, g1, g2⟩ := vib_formula (n := fun _ => 0) S3 S4 AZ hp hw hG
  constructor
  · rw [g0, g1, g2, hz, unorderedSum_range _ xs, mul_sum, mul_sum]
    simp only [Nat.cast_zero, zero_add, mul_sum]
    rw [sum_congr rfl fun k (_ : k ∈ range s.nvib) => mul_comm (1 / 2 : ℝ) (w k)]
    rw [sum_congr rfl fun k (_ : k ∈ range s.nvib) => sum_congr rfl fun l (_ : l ∈ range (k + 1)) =>
      show (1 / 4 : ℝ) * xSpec (fun _ _ _ => False) s.nvib w φ ψ ζ s.rotcon k l =
        xSpec (fun _ _ _ => False) s.nvib w φ ψ ζ s.rotcon k l * (1 / 2) * (1 / 2) by ring]
    ring
  · intro i hi E0 E1 E2 hE
    obtain ⟨a0, a1, a2⟩ := vib_formula (n := quanta i 1) S3 S4 AZ hp hw
      (show VibEnergy w φ ψ ζ s.rotcon (fun j : Fin s.nvib => quanta i 1 j) E0 E1 E2 from hE)
    rw [hf.2 i hi, Option.some.injEq, ← single_sum _ xs w s.nvib i hi, a0, a1, a2, g0, g1, g2]
    simp only [quanta, ite_self]
    ring

/-- `diagOracles` with an exact solver for the two-level problems. -/
noncomputable def closeOracles : Oracles ℝ Nat := { diagOracles 9 id with eigen2 := exactOracles2.eigen2 }

/-- The run of a molecule with the frequencies `closeFreqs`. -/
theorem closeFreqs_run (B : Vec ℝ) (f3x : T3 ℝ) (f4x : T4 ℝ) : ∃ (fc2 : Mat ℝ) (out : Output ℝ Nat),
    run { exampleTop with rotcon := B } closeOracles (.quartic fc2 f3x f4x) = some out ∧ ∀ i < 3, entryOf out.harms i = closeFreqs i := by
  let T : SpectroIn ℝ := { exampleTop with rotcon := B }
  let W : Nat → ℝ := fun i => if i < 3 then closeFreqs i else 0
  obtain ⟨out, h⟩ := Option.isSome_iff_exists.1 (c74_completes T closeOracles (diagHessian W) f3x f4x rfl
    (show 0 < 3 by decide) (show 3 ≤ 9 by decide) (show 6 = 3 * (3 + 1) / 2 by decide) (show 2 < 4 by decide) (fun m => diagOracles_length 9 id m)
    (fun p v q => (exactOracles2_eigen2 p v q).1) le_rfl)
  refine ⟨_, out, h, ?_⟩
  obtain ⟨hraw, -⟩ := diag_raw T W id rfl rfl rfl (fun _ h => h) (fun i => by
    show 0 ≤ if i < 3 then closeFreqs i else 0
    split
    · exact (closeFreqs_pos i (by assumption)).le
    · exact le_rfl) (fun i j hij _ => by
    show (if j < 3 then closeFreqs j else 0) ≤ if i < 3 then closeFreqs i else 0
    by_cases hj : j < 3
    · rw [if_pos hj, if_pos (by omega)]
      unfold closeFreqs
      have : (i : ℝ) ≤ j := by exact_mod_cast hij.le
      linarith
    · rw [if_neg hj]
      split
      · exact (closeFreqs_pos i (by assumption)).le
      · exact le_rfl)
  obtain ⟨m, F4, hm, -, hfin⟩ := run_quartic h
  have hfr : m.freq = (rawModes T closeOracles (diagHessian W)).1 := by
    unfold runModes at hm
    simp only [Option.bind_eq_bind, Option.bind_eq_some_iff] at hm
    obtain ⟨p, -, irr, -, hm⟩ := hm
    obtain rfl := Option.some.inj hm
    rfl
  obtain ⟨r, x, hf, zc, v, v', -, -, hff, -, -, -, hha, -⟩ := finish_parts hfin
  unfold finishFunds at hff
  simp only [show T.rotor.isSymTop = false from rfl, Bool.false_eq_true, if_false] at hff
  obtain ⟨hs, hfirst, rfl⟩ := Option.map_eq_some_iff.1 hff
  have hhs : out.harms = m.freq.take 3 := by
    rw [hha]
    unfold firstFreqs at hfirst
    split at hfirst
    · cases hfirst
    · exact (Option.some.inj hfirst).symm
  intro i hi
  rw [hhs, hfr, show (rawModes T closeOracles (diagHessian W)).1 = _ from hraw, entryOf]
  interval_cases i <;> simp [T, exampleTop, List.range_succ, W]

/-- The hypotheses of `c102_run` are met by a molecule with three different frequencies and all derivatives `1`, and the
energies it speaks of exist. -/
example : ∃ (fc2 : Mat ℝ) (out : Output ℝ Nat) (G0 G1 G2 : ℝ) (E : Nat → ℝ × ℝ × ℝ),
    Symm3 exampleTop.n3n (fun _ _ _ => (1 : ℝ)) ∧ Symm4 exampleTop.n3n (fun _ _ _ _ => (1 : ℝ)) ∧
    run exampleTop closeOracles (.quartic fc2 (fun _ _ _ => 1) fun _ _ _ _ => 1) = some out ∧
    (∀ p v q, IsEigen2 p v q (closeOracles.eigen2 p v q)) ∧
    (out.resonances.fermi1 = [] ∧ out.resonances.fermi2 = []) ∧
    (∀ i < exampleTop.nvib, 0 < entryOf out.harms i) ∧ NoResonance exampleTop.nvib (entryOf out.harms) ∧
    let w := entryOf out.harms
    let φ := cubicField exampleTop.n3n exampleTop.axes (fun _ _ _ => 1) w out.lx
    let ψ := quarticField exampleTop.n3n exampleTop.axes (fun _ _ _ _ => 1) w out.lx
    let ζ := zetaField exampleTop.natom out.lxm
    VibEnergy w φ ψ ζ exampleTop.rotcon (fun _ : Fin exampleTop.nvib => 0) G0 G1 G2 ∧
    ∀ i < exampleTop.nvib, VibEnergy w φ ψ ζ exampleTop.rotcon
      (fun j : Fin exampleTop.nvib => if (j : Nat) = i then 1 else 0) (E i).1 (E i).2.1 (E i).2.2 := by
  obtain ⟨fc2, out, h, hw⟩ := closeFreqs_run exampleTop.rotcon (fun _ _ _ => 1) fun _ _ _ _ => 1
  have h3 : Symm3 exampleTop.n3n (fun _ _ _ => (1 : ℝ)) := fun _ _ _ _ _ _ => ⟨rfl, rfl⟩
  have h4 : Symm4 exampleTop.n3n (fun _ _ _ _ => (1 : ℝ)) := fun _ _ _ _ _ _ _ _ => ⟨rfl, rfl, rfl⟩
  obtain ⟨-, ⟨-, h1⟩, ⟨-, h2⟩, -⟩ := c80_resonances _ _ _ _ _ _ rfl rfl (by decide) (by decide) h3 h4 h
  have alone : ∀ n : Nat → Nat, n 0 + n 1 + n 2 ≤ 1 → ∀ m : Nat → Nat,
      ∑ i ∈ range 3, entryOf out.harms i * m i = ∑ i ∈ range 3, entryOf out.harms i * n i → ∀ i < 3, m i = n i := by
    intro n hn m hm
    have e : ∀ f : Nat → Nat, ∑ i ∈ range 3, entryOf out.harms i * f i = ∑ i ∈ range 3, closeFreqs i * f i :=
      fun f => sum_congr rfl fun i hi => by rw [hw i (mem_range.1 hi)]
    rw [e, e] at hm
    exact closeFreqs_alone n hn m hm
  obtain ⟨G0, G1, G2, hG⟩ := c102_exists 3 (entryOf out.harms)
    (cubicField exampleTop.n3n exampleTop.axes (fun _ _ _ => 1) (entryOf out.harms) out.lx)
    (zetaField exampleTop.natom out.lxm)
    (quarticField exampleTop.n3n exampleTop.axes (fun _ _ _ _ => 1) (entryOf out.harms) out.lx) exampleTop.rotcon
    (fun _ => 0) (alone _ (by norm_num))
  have hE : ∀ i, ∃ E : ℝ × ℝ × ℝ, i < 3 → VibEnergy (entryOf out.harms)
      (cubicField exampleTop.n3n exampleTop.axes (fun _ _ _ => 1) (entryOf out.harms) out.lx)
      (quarticField exampleTop.n3n exampleTop.axes (fun _ _ _ _ => 1) (entryOf out.harms) out.lx)
      (zetaField exampleTop.natom out.lxm) exampleTop.rotcon (fun j : Fin 3 => if (j : Nat) = i then 1 else 0)
      E.1 E.2.1 E.2.2 := by
    intro i
    by_cases hi : i < 3
    · obtain ⟨E0, E1, E2, h⟩ := c102_exists 3 (entryOf out.harms)
        (cubicField exampleTop.n3n exampleTop.axes (fun _ _ _ => 1) (entryOf out.harms) out.lx)
        (zetaField exampleTop.natom out.lxm)
        (quarticField exampleTop.n3n exampleTop.axes (fun _ _ _ _ => 1) (entryOf out.harms) out.lx) exampleTop.rotcon
        (fun j => if j = i then 1 else 0) (alone _ (by interval_cases i <;> decide))
      exact ⟨⟨E0, E1, E2⟩, fun _ => h⟩
    · exact ⟨0, fun h => absurd h hi⟩
  choose E hE using hE
  refine ⟨fc2, out, G0, G1, G2, E, h3, h4, h, exactOracles2_eigen2, ⟨?_, ?_⟩, fun i hi => ?_, fun i j k hi hj hk => ?_,
    hG, fun i hi => hE i hi⟩
  · rw [List.eq_nil_iff_forall_not_mem]
    rintro ⟨i, j⟩ hm
    obtain ⟨hi, hj, hd, -⟩ := (h1 i j).1 hm
    have hi : i < 3 := hi
    have hj : j < 3 := hj
    rw [hw i hi, hw j hj, abs_le, closeFreqs, closeFreqs] at hd
    have : (0 : ℝ) ≤ j := by positivity
    have : (i : ℝ) ≤ 2 := by exact_mod_cast (by omega : i ≤ 2)
    linarith [hd.2]
  · rw [List.eq_nil_iff_forall_not_mem]
    rintro ⟨i, j, k⟩ hm
    obtain ⟨hk, hj, hi, -, hd⟩ := (h2 i j k).1 hm
    have hi : i < 3 := hi
    obtain ⟨rfl, rfl, rfl⟩ : i = 2 ∧ j = 1 ∧ k = 0 := by omega
    rw [hw 2 hi, hw 1 (by omega), hw 0 (by omega)] at hd
    norm_num [closeFreqs] at hd
  · rw [hw i hi]
    exact closeFreqs_pos i hi
  · rw [hw i hi, hw j hj, hw k hk]
    exact closeFreqs_noRes i j k hi hj hk

end Verif
