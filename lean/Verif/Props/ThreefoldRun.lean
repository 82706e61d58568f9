import Verif.Lemmas.ThreefoldRun
import Verif.Lemmas.ThreefoldState
import Verif.Lemmas.ThreefoldExample
import Verif.Props.Threefold

/-!
# C105: the states exist, whole runs
-/

namespace Verif

open Finset Osc

/-- C105: the energies of the states with one quantum in a degenerate mode exist if no other states of the harmonic
oscillators have the same energy: the two states of the pair do not mix. (For the other states see `c102_exists`.) -/
theorem c105_exists (N : Nat) (one : List Nat) (two : List (Nat × Nat)) (s p : Nat → ℝ) (ax : Nat) (w : Nat → ℝ)
    (φ : Nat → Nat → Nat → ℝ) (ψ : Nat → Nat → Nat → Nat → ℝ) (ζ : Nat → Nat → Nat → ℝ) (B : Nat → ℝ)
    (hT : Threefold N one two s p ax w φ ψ ζ B) (t : Nat × Nat) (ht : t ∈ two)
    (hn : ∀ m : Nat → Nat, ∑ i ∈ range N, w i * m i = w t.1 →
      (∀ i < N, m i = if i = t.1 then 1 else 0) ∨ ∀ i < N, m i = if i = t.2 then 1 else 0)
    (c : Nat) (hc : c = t.1 ∨ c = t.2) :
    ∃ E0 E1 E2, VibEnergy w φ ψ ζ B (fun j : Fin N => if (j : Nat) = c then 1 else 0) E0 E1 E2 := by
  have one' : ∀ c < N, ∑ i ∈ range N, w i * (quanta c 1 i : ℝ) = w c := by
    intro c hc
    simp [quanta, hc]
  have al : ∀ a b, ((a = t.1 ∧ b = t.2) ∨ (a = t.2 ∧ b = t.1)) → Alone N w (quanta a 1) (quanta b 1) := by
    intro a b hab m ⟨i, hi, hia⟩ ⟨j, hj, hjb⟩
    have no : ∑ i ∈ range N, w i * (m i : ℝ) ≠ w t.1 := by
      intro e
      rcases hn m e with h | h <;> rcases hab with ⟨rfl, rfl⟩ | ⟨rfl, rfl⟩
      · exact hia (h i hi)
      · exact hjb (h j hj)
      · exact hjb (h j hj)
      · exact hia (h i hi)
    have e := hT.frequencies t ht
    rcases hab with ⟨rfl, rfl⟩ | ⟨rfl, rfl⟩
    · rw [one' _ (hT.ltf ht), one' _ (hT.lts ht), e]
      exact ⟨no, no⟩
    · rw [one' _ (hT.ltf ht), one' _ (hT.lts ht), e]
      exact ⟨no, no⟩
  rcases hc with rfl | rfl
  · exact component_exists hT ht (.inl ⟨rfl, rfl⟩) (al _ _ (.inl ⟨rfl, rfl⟩))
  · exact component_exists hT ht (.inr ⟨rfl, rfl⟩) (al _ _ (.inr ⟨rfl, rfl⟩))

/-- C105, run: let a run of a symmetric top or a linear molecule find no Fermi resonances, let the force constants and
Coriolis constants of its normal modes have a threefold axis, and a perpendicular half-turn or a mirror plane through the
axis (`Threefold`), the axis `ax` of the half-turn or perpendicular to the plane being the one the code takes for the
Coriolis couplings, and let every non-degenerate mode be even or not couple with two different degenerate ones. Then the
reported fundamentals are, to second order of perturbation theory for the vibrational Hamiltonian of the molecule, the
differences between the energies of the states with one quantum and that of the ground state: first those of the
non-degenerate modes, then one for each degenerate mode, the same for both components.
Missing: odd non-degenerate modes which couple with two degenerate ones, see `c105_violated`, and an axis other than the one the
code takes, see `c105_axis_violated`. -/
theorem c105_run_partial {ι : Type} (sp : SpectroIn ℝ) (o : Oracles ℝ ι) (fc2 : Mat ℝ) (f3x : T3 ℝ) (f4x : T4 ℝ)
    (out hout : Output ℝ ι) (hr : sp.rotor.isSymTop = true) (hn : sp.n3n = 3 * sp.natom) (hv : sp.nvib ≤ sp.n3n)
    (h0 : 0 < sp.nvib) (h3 : Symm3 sp.n3n f3x) (h4 : Symm4 sp.n3n f4x)
    (h : run sp o (.quartic fc2 f3x f4x) = some out) (hh : run sp o (.harmonic fc2) = some hout)
    (hnf : out.resonances.fermi1 = [] ∧ out.resonances.fermi2 = [])
    (hp : ∀ i < sp.nvib, 0 < entryOf hout.harms i) (hw : NoResonance sp.nvib (entryOf hout.harms)) :
    let w := entryOf hout.harms
    let φ := cubicField sp.n3n sp.axes f3x w out.lx
    let ψ := quarticField sp.n3n sp.axes f4x w out.lx
    let ζ := zetaField sp.natom out.lxm
    let one := nonDeg out.resonances.modes
    let two := degPairs out.resonances.modes
    ∀ (s p : Nat → ℝ) (ax : Nat), Threefold sp.nvib one two s p ax w φ ψ ζ sp.rotcon →
    CouplingAxis (sp.rotor = .linear) (two.map (·.2))
      (fun j c => inertiaField sp.natom sp.pos sp.weights out.lxm j (if c = 3 then 0 else 1) 2) ax →
    (∀ k ∈ one, p k = 1 ∨ ∀ t ∈ two, ∀ u ∈ two, φ k t.1 u.2 = 0) →
    ∀ G0 G1 G2, VibEnergy w φ ψ ζ sp.rotcon (fun _ : Fin sp.nvib => 0) G0 G1 G2 →
    (∀ q k : Nat, one[q]? = some k → ∀ E0 E1 E2,
      VibEnergy w φ ψ ζ sp.rotcon (fun j : Fin sp.nvib => if (j : Nat) = k then 1 else 0) E0 E1 E2 →
      out.funds[q]? = some (E0 + E1 + E2 - (G0 + G1 + G2))) ∧
    ∀ (q : Nat) (t : Nat × Nat), two[q]? = some t → ∀ c, c = t.1 ∨ c = t.2 → ∀ E0 E1 E2,
      VibEnergy w φ ψ ζ sp.rotcon (fun j : Fin sp.nvib => if (j : Nat) = c then 1 else 0) E0 E1 E2 →
      out.funds[one.length + q]? = some (E0 + E1 + E2 - (G0 + G1 + G2)) := by
  intro w φ ψ ζ one two s p ax hT hax hc G0 G1 G2 hG
  obtain ⟨m, F4, hm, hF, hfin⟩ := run_quartic h
  obtain ⟨m', hm', -, -, -, hfr⟩ := harmonic_facts hh
  obtain rfl : m = m' := Option.some.inj (hm.symm.trans hm')
  obtain ⟨r, x, hf, zc, v, v', -, hx, hff, -, hvec, hvec', -, hfu, -, -, -, -, e1, e2, -, rfl⟩ := finish_parts hfin
  rw [← e1] at hvec
  rw [← e2] at hvec'
  obtain ⟨c3, c4, cz, ca⟩ := field_parts hn hv h0 h3 h4 hF hvec hvec' hfr
  rw [finishX, hr, if_pos rfl, hnf.1, hnf.2, Option.map_eq_some_iff] at hx
  obtain ⟨⟨x', g, e0⟩, hx, rfl⟩ := hx
  rw [finishFunds, hr, if_pos rfl] at hff
  have c3' := fun i j k hi hj hk => (c3 i j k hi hj hk).symm
  have hT' := hT.congr hfr c3 c4 cz
  have hax' : CouplingAxis (sp.rotor = .linear) ((degPairs out.resonances.modes).map (·.2))
      (wilsonA sp.nvib sp.natom sp.pos m.lxm sp.weights) ax := by
    have mem : ∀ j ∈ two.map (·.2), j < sp.nvib := fun j hj => List.mem_range.1 (hT.modes.mem_iff.1
      (List.mem_append_right _ hj))
    have a3 : ∀ j ∈ two.map (·.2), wilsonA sp.nvib sp.natom sp.pos m.lxm sp.weights j 3 =
        inertiaField sp.natom sp.pos sp.weights out.lxm j 0 2 := fun j hj => ca j 0 2 (mem j hj) (by omega) (by omega)
    have a4 : ∀ j ∈ two.map (·.2), wilsonA sp.nvib sp.natom sp.pos m.lxm sp.weights j 4 =
        inertiaField sp.natom sp.pos sp.weights out.lxm j 1 2 := fun j hj => ca j 1 2 (mem j hj) (by omega) (by omega)
    refine ⟨hax.1, hax.2.trans (and_congr_right fun _ => and_congr (forall₂_congr fun j hj => ?_)
      (exists_congr fun j => and_congr_right fun hj => ?_))⟩
    · rw [a3 j hj]; rfl
    · rw [a4 j hj]; rfl
  have S3 : Symm3 sp.nvib (f3Of (force3 sp.n3n (rot3rd sp.n3n sp.natom sp.axes f3x) m.lx sp.nvib (vecOf m.freq))) := by
    have S := cubicField_symm h3 sp.axes w out.lx sp.nvib
    intro a b c ha hb hc
    rw [c3 a b c ha hb hc, c3 b a c hb ha hc, c3 a c b ha hc hb]
    exact S a b c ha hb hc
  have S4 : Symm4 sp.nvib (f4Of F4) := by
    have S := quarticField_symm h4 sp.axes w out.lx sp.nvib
    intro a b c d ha hb hc hd
    rw [c4 a b c d ha hb hc hd, c4 b a c d hb ha hc hd, c4 a c b d ha hc hb hd, c4 a b d c ha hb hd hc]
    exact S a b c d ha hb hc hd
  have pos : ∀ i < sp.nvib, 0 < vecOf m.freq i := fun i hi => by rw [hfr i hi]; exact hp i hi
  have nr : NoResonance sp.nvib (vecOf m.freq) := fun i j k hi hj hk => by
    rw [hfr i hi, hfr j hj, hfr k hk]; exact hw i j k hi hj hk
  have odd : ∀ k ∈ nonDeg out.resonances.modes, p k = 1 ∨ ∀ t ∈ degPairs out.resonances.modes,
      ∀ u ∈ degPairs out.resonances.modes,
      f3Of (force3 sp.n3n (rot3rd sp.n3n sp.natom sp.axes f3x) m.lx sp.nvib (vecOf m.freq)) k t.1 u.2 = 0 :=
    fun k hk => (hc k hk).imp_right fun e t ht u hu => by
      rw [c3 _ _ _ (hT.lt1 hk) (hT.ltf ht) (hT.lts hu)]; exact e t ht u hu
  have AZ : ∀ a k l, k < sp.nvib → l < sp.nvib → makeZmat sp.nvib sp.natom m.lxm k l a = -makeZmat sp.nvib sp.natom m.lxm l k a := by
    intro a k l hk hl
    by_cases ha : a < 3
    · exact (c15_antisymmetric _ _ _ _ _ _ hk hl ha).1
    · unfold makeZmat
      have l0 : (Arith.lit 0 : ℝ) = 0 := by rw [lit_real]; norm_num
      simp only [if_neg (show a ≠ 0 by omega), if_neg (show a ≠ 1 by omega), if_neg (show a ≠ 2 by omega), l0, ite_self, neg_zero]
  rw [hfu]
  have key := c105_fundamentals_partial hx hax' hT' S3 S4 AZ pos nr odd hf.1 hf.2 hff G0 G1 G2
    (vibEnergy_congr hG hfr c3 c4 cz)
  exact ⟨fun q k hq E0 E1 E2 hE => key.1 q k hq E0 E1 E2 (vibEnergy_congr hE hfr c3 c4 cz),
    fun q t hq c hct E0 E1 E2 hE => key.2 q t hq c hct E0 E1 E2 (vibEnergy_congr hE hfr c3 c4 cz)⟩

theorem xcals_runs {rotor : Rotor} (hr : rotor ≠ .diatomic) (F4 : T4 ℝ) (w : Vec ℝ) (F3 zeta : T3 ℝ) (B : Vec ℝ)
    (f1 : List Fermi1) (f2 : List Fermi2) (modes : List Mode) (wila : Mat ℝ) :
    ∃ x g e0, xcals rotor F4 w F3 zeta B f1 f2 modes wila = some (x, g, e0) := by
  unfold xcals nondegNondeg
  simp only [if_neg hr, Option.map_some]
  exact ⟨_, _, _, rfl⟩

/-- C105 is violated: a molecule with a threefold axis and a perpendicular half-turn, without Fermi resonances, in which an
odd non-degenerate mode couples with two degenerate ones. The code leaves the coupling out: the fundamental it reports for
the non-degenerate mode is not the difference between the energies. -/
theorem c105_violated : ∃ (modes : List Mode) (x g : Mat ℝ) (e0 : ℝ) (harms funds : List ℝ) (G0 G1 G2 E0 E1 E2 : ℝ),
    xcals .oblateSymmTop (fun _ _ _ _ => 0) oddFreq oddCubic (fun _ _ _ => 0) (fun _ => 1) [] [] modes (fun _ _ => 0) =
      some (x, g, e0) ∧
    CouplingAxis (Rotor.oblateSymmTop = .linear) ((degPairs modes).map (·.2)) (fun _ _ => 0) 1 ∧
    Threefold 5 (nonDeg modes) (degPairs modes) (fun _ => 1) oddSign 1 oddFreq oddCubic (fun _ _ _ _ => 0)
      (fun _ _ _ => 0) (fun _ => 1) ∧
    Symm3 5 oddCubic ∧ (∀ i < 5, 0 < oddFreq i) ∧ NoResonance 5 oddFreq ∧
    makeSymFunds modes oddFreq x (some g) = some (harms, funds) ∧ (nonDeg modes)[0]? = some 0 ∧
    VibEnergy oddFreq oddCubic (fun _ _ _ _ => 0) (fun _ _ _ => 0) (fun _ => 1) (fun _ : Fin 5 => 0) G0 G1 G2 ∧
    VibEnergy oddFreq oddCubic (fun _ _ _ _ => 0) (fun _ _ _ => 0) (fun _ => 1)
      (fun j : Fin 5 => if (j : Nat) = 0 then 1 else 0) E0 E1 E2 ∧
    funds[0]? ≠ some (E0 + E1 + E2 - (G0 + G1 + G2)) := by
  obtain ⟨x, g, e0, hx⟩ := xcals_runs (rotor := .oblateSymmTop) (by decide) (fun _ _ _ _ => 0) oddFreq oddCubic (fun _ _ _ => 0)
    (fun _ => 1) [] [] [.i1 0, .i2 1 2, .i2 3 4] (fun _ _ => 0)
  have hd : (modeNumbers [.i1 0, .i2 1 2, .i2 3 4]).Nodup := by decide
  have n1 : nonDeg [.i1 0, .i2 1 2, .i2 3 4] = [0] := rfl
  have n2 : degPairs [.i1 0, .i2 1 2, .i2 3 4] = [(1, 2), (3, 4)] := rfl
  have hp : ∀ i < 5, 0 < oddFreq i := fun i _ => by unfold oddFreq; split_ifs <;> norm_num
  have hw : NoResonance 5 oddFreq := by
    intro i j k _ _ _
    unfold oddFreq
    split_ifs <;> norm_num
  have lev : ∀ m : Nat → Nat, ∑ i ∈ range 5, oddFreq i * m i =
      ((750 * m 0 + 1250 * (m 1 + m 2) + 1750 * (m 3 + m 4) : Nat) : ℝ) := by
    intro m
    simp [sum_range_succ, oddFreq]
    ring
  have ex : ∀ n : Nat → Nat, n 0 ≤ 1 → n 1 = 0 → n 2 = 0 → n 3 = 0 → n 4 = 0 → ∃ E0 E1 E2, VibEnergy oddFreq oddCubic
      (fun _ _ _ _ => 0) (fun _ _ _ => 0) (fun _ => 1) (fun i : Fin 5 => n i) E0 E1 E2 := by
    intro n a0 a1 a2 a3 a4
    refine c102_exists 5 oddFreq _ _ _ _ n fun m hm i hi => ?_
    rw [lev, lev, Nat.cast_inj] at hm
    interval_cases i <;> omega
  obtain ⟨G0, G1, G2, hG⟩ := ex (fun _ => 0) (by norm_num) rfl rfl rfl rfl
  obtain ⟨E0, E1, E2, hE⟩ := ex (fun j => if j = 0 then 1 else 0) le_rfl rfl rfl rfl rfl
  have AZ : ∀ a k l : Nat, k < 5 → l < 5 → (0 : ℝ) = -0 := fun _ _ _ _ _ => by norm_num
  have S4 : Symm4 5 (fun _ _ _ _ => (0 : ℝ)) := fun _ _ _ _ _ _ _ _ => ⟨rfl, rfl, rfl⟩
  refine ⟨_, x, g, e0, _, _, G0, G1, G2, E0, E1, E2, hx, ?_, ?_, oddCubic_symm, hp, hw, rfl, rfl, hG, hE, ?_⟩
  · refine ⟨le_rfl, iff_of_false (by decide) fun h => ?_⟩
    have := h.2.1 2 (by simp)
    norm_num at this
  · rw [n1, n2]
    exact odd_threefold
  · have dens : ∀ l ∈ modeNumbers [.i1 0, .i2 1 2, .i2 3 4], (⟨0, l⟩ : Fermi1) ∉ ([] : List Fermi1) →
        oddFreq l ≠ 0 ∧ 2 * oddFreq 0 + oddFreq l ≠ 0 ∧ 2 * oddFreq 0 - oddFreq l ≠ 0 := by
      intro l _ _
      unfold oddFreq
      split_ifs <;> norm_num
    have x00 := (c33_diagonal _ _ _ _ _ _ _ _ _ _ _ _ _ hx hd 0 (by simp) dens).1 (by simp)
    have dens' : ∀ l m, DensOk oddFreq 0 l m := by
      intro l m
      unfold DensOk oddFreq
      split_ifs <;> norm_num
    have x01 := c33_mixed_partial _ _ _ _ _ _ _ _ _ _ _ _ _ hx hd 0 1 2 (by simp) (by simp)
      (fun m _ => by simp [ThirdOnly, Listed]) (fun m _ _ => dens' _ _)
    have x03 := c33_mixed_partial _ _ _ _ _ _ _ _ _ _ _ _ _ hx hd 0 3 4 (by simp) (by simp)
      (fun m _ => by simp [ThirdOnly, Listed]) (fun m _ _ => dens' _ _)
    rw [n1] at x00 x01 x03
    rw [n2] at x01 x03
    simp [xkkSpecL, oddCubic] at x00
    simp [xndSpec, oddCubic] at x01 x03
    obtain ⟨g0, g1, g2⟩ := vib_formula (n := fun _ => 0) oddCubic_symm S4 AZ hp hw hG
    obtain ⟨a0, a1, a2⟩ := vib_formula (n := quanta 0 1) oddCubic_symm S4 AZ hp hw
      (show VibEnergy oddFreq oddCubic (fun _ _ _ _ => 0) (fun _ _ _ => 0) (fun _ => 1) (fun j : Fin 5 => quanta 0 1 j) E0 E1 E2 from hE)
    have e := single_sum (xSpec noneOut 5 oddFreq oddCubic (fun _ _ _ _ => 0) (fun _ _ _ => 0) (fun _ => 1))
      (xSpec_symm _ _ _ _ _ _ _) oddFreq 5 0 (by omega)
    have er : (range 5).erase 0 = {1, 2, 3, 4} := by decide
    have d : E0 + E1 + E2 - (G0 + G1 + G2) = 750 + 2 * xSpec noneOut 5 oddFreq oddCubic (fun _ _ _ _ => 0) (fun _ _ _ => 0)
        (fun _ => 1) 0 0 + 1 / 2 * ∑ j ∈ (range 5).erase 0, xSpec noneOut 5 oddFreq oddCubic (fun _ _ _ _ => 0) (fun _ _ _ => 0)
        (fun _ => 1) 0 j := by
      have w0 : oddFreq 0 = 750 := by simp [oddFreq]
      rw [a0, a1, a2, g0, g1, g2, ← w0]
      simp only [quanta, ite_self] at e ⊢
      linear_combination e
    intro hc
    have f : oddFreq 0 + x 0 0 * 2 + x 0 1 + x 0 3 = E0 + E1 + E2 - (G0 + G1 + G2) := by
      have := Option.some.inj hc
      rw [← this]
      have l2 : (Arith.lit 2.0 : ℝ) = 2 := by rw [lit_real]; norm_num
      simp only [part_nonDeg, part_degPairs, n1, n2, l2, List.foldl_cons, List.foldl_nil, List.map_cons, List.map_nil, ne_eq,
        not_true_eq_false, if_false]
    rw [d, x00, x01, x03, er] at f
    simp [xSpec, xkkSpec, xklSpec, sum_range_succ, oddCubic, oddFreq, fracUnless, noneOut] at f
    norm_num at f

/-- C105 is violated: a molecule with a threefold axis and a perpendicular half-turn, without Fermi resonances, in which the first
components of two degenerate modes have a Coriolis coupling about the axis of the half-turn, and the second component of one of
the modes, but not of the other, changes the product of inertia by which the code finds this axis, as for the modes in the plane
and out of the plane of a planar molecule. The code takes the other axis and leaves the coupling out: the fundamental it
reports is the harmonic frequency, and not the difference between the energies. -/
theorem c105_axis_violated : ∃ (modes : List Mode) (wila x g : Mat ℝ) (e0 : ℝ) (harms funds : List ℝ) (G0 G1 G2 E0 E1 E2 : ℝ),
    xcals .oblateSymmTop (fun _ _ _ _ => 0) crossFreq (fun _ _ _ => 0) crossZeta (fun _ => 1) [] [] modes wila = some (x, g, e0) ∧
    wila 1 3 = 0 ∧ wila 3 3 = 1 ∧ (∀ i, wila i 4 = 0) ∧
    CouplingAxis (Rotor.oblateSymmTop = .linear) ((degPairs modes).map (·.2)) wila 1 ∧
    Threefold 4 (nonDeg modes) (degPairs modes) (fun _ => 1) crossSign 0 crossFreq (fun _ _ _ => 0) (fun _ _ _ _ => 0)
      crossZeta (fun _ => 1) ∧
    (∀ i < 4, 0 < crossFreq i) ∧ NoResonance 4 crossFreq ∧
    makeSymFunds modes crossFreq x (some g) = some (harms, funds) ∧ nonDeg modes = [] ∧ (degPairs modes)[0]? = some (0, 1) ∧
    VibEnergy crossFreq (fun _ _ _ => 0) (fun _ _ _ _ => 0) crossZeta (fun _ => 1) (fun _ : Fin 4 => 0) G0 G1 G2 ∧
    VibEnergy crossFreq (fun _ _ _ => 0) (fun _ _ _ _ => 0) crossZeta (fun _ => 1)
      (fun j : Fin 4 => if (j : Nat) = 0 then 1 else 0) E0 E1 E2 ∧
    funds[0]? = some (crossFreq 0) ∧ crossFreq 0 ≠ E0 + E1 + E2 - (G0 + G1 + G2) := by
  let wila : Mat ℝ := fun i a => if i = 3 ∧ a = 3 then 1 else 0
  obtain ⟨x, g, e0, hx⟩ := xcals_runs (rotor := .oblateSymmTop) (by decide) (fun _ _ _ _ => 0) crossFreq (fun _ _ _ => 0) crossZeta
    (fun _ => 1) [] [] [.i2 0 1, .i2 2 3] wila
  have hd : (modeNumbers [.i2 0 1, .i2 2 3]).Nodup := by decide
  have n1 : nonDeg [.i2 0 1, .i2 2 3] = [] := rfl
  have n2 : degPairs [.i2 0 1, .i2 2 3] = [(0, 1), (2, 3)] := rfl
  have hp : ∀ i < 4, 0 < crossFreq i := fun i _ => by unfold crossFreq; split_ifs <;> norm_num
  have hw : NoResonance 4 crossFreq := by
    intro i j k _ _ _
    unfold crossFreq
    split_ifs <;> norm_num
  have lev : ∀ m : Nat → Nat, ∑ i ∈ range 4, crossFreq i * m i = ((1000 * (m 0 + m 1) + 1700 * (m 2 + m 3) : Nat) : ℝ) := by
    intro m
    simp [sum_range_succ, crossFreq]
    ring
  have hax : CouplingAxis (Rotor.oblateSymmTop = .linear) ((degPairs [.i2 0 1, .i2 2 3]).map (·.2)) wila 1 := by
    refine ⟨le_rfl, iff_of_false (by decide) fun h => ?_⟩
    have := h.2.1 1 (by simp [n2])
    norm_num [wila] at this
  obtain ⟨G0, G1, G2, hG⟩ : ∃ E0 E1 E2, VibEnergy crossFreq (fun _ _ _ => 0) (fun _ _ _ _ => 0) crossZeta (fun _ => 1)
      (fun _ : Fin 4 => 0) E0 E1 E2 := by
    refine c102_exists 4 crossFreq _ _ _ _ (fun _ => 0) fun m hm i hi => ?_
    rw [lev, lev, Nat.cast_inj] at hm
    interval_cases i <;> omega
  obtain ⟨E0, E1, E2, hE⟩ := c105_exists 4 _ _ _ _ _ _ _ _ _ _ cross_threefold (0, 1) (by simp) (fun m hm => by
    rw [lev, show crossFreq (0, 1).1 = ((1000 : Nat) : ℝ) by simp [crossFreq], Nat.cast_inj] at hm
    have : m 2 = 0 ∧ m 3 = 0 ∧ ((m 0 = 1 ∧ m 1 = 0) ∨ (m 0 = 0 ∧ m 1 = 1)) := by omega
    obtain ⟨c2, c3, ⟨c0, c1⟩ | ⟨c0, c1⟩⟩ := this
    · left
      intro i hi
      interval_cases i <;> simp [c0, c1, c2, c3]
    · right
      intro i hi
      interval_cases i <;> simp [c0, c1, c2, c3]) 0 (.inl rfl)
  have ent := xcals_entries _ _ _ _ _ _ _ _ _ _ _ _ _ hx (part_nonDeg _) (part_degPairs _) (distinct_of_modes _ hd)
  have x00 : x 0 0 = 0 := by
    rw [(c33_diagonal _ _ _ _ _ _ _ _ _ _ _ _ _ hx hd 0 (by simp) (fun l _ _ => by
      unfold crossFreq
      split_ifs <;> norm_num)).2 1 (by simp)]
    simp [xkkSpecL]
  have x20 : x 2 0 = 0 := by
    rw [c33_degenerate_partial _ _ _ _ _ _ _ _ _ _ _ _ _ hx hd 1 0 (by norm_num) (2, 3) (0, 1) rfl rfl 1 hax
      (fun m _ => by simp [ThirdOnly, Listed]) (fun m _ _ => by
        unfold DensOk crossFreq
        split_ifs <;> norm_num)]
    simp [xddSpec, n1, n2, crossZeta]
  have g00 : g 0 0 = 0 := by
    have := (ent.2.2.2.2.2.1 (0, 1) (by simp [n2])).1
    rw [this]
    have l0 : ∀ l, gDiagValus crossFreq (fun _ _ _ => 0) (makeFermiChecks [] []).ifrm1 0 l = 0 := by
      intro l
      unfold gDiagValus
      split_ifs <;> simp [sq]
    simp [gDiag, n1, n2, sumL_real, crossZeta, sq, l0]
  have x02 : x 0 2 = 0 := by rw [(c30_symmetric_top _ _ _ _ _ _ _ _ _ _ _ _ _ hx 0 2).1, x20]
  have S3 : Symm3 4 (fun _ _ _ => (0 : ℝ)) := fun _ _ _ _ _ _ => ⟨rfl, rfl⟩
  have S4 : Symm4 4 (fun _ _ _ _ => (0 : ℝ)) := fun _ _ _ _ _ _ _ _ => ⟨rfl, rfl, rfl⟩
  refine ⟨_, wila, x, g, e0, _, _, G0, G1, G2, E0, E1, E2, hx, by simp [wila], by simp [wila], by simp [wila], hax, ?_, hp, hw, rfl,
    n1, rfl, hG, hE, ?_, ?_⟩
  · rw [n1, n2]
    exact cross_threefold
  · simp [part_nonDeg, part_degPairs, n1, n2, x00, x02, g00]
  · obtain ⟨g0, g1, g2⟩ := vib_formula (n := fun _ => 0) S3 S4 crossZeta_anti hp hw hG
    obtain ⟨a0, a1, a2⟩ := vib_formula (n := quanta 0 1) S3 S4 crossZeta_anti hp hw
      (show VibEnergy crossFreq (fun _ _ _ => 0) (fun _ _ _ _ => 0) crossZeta (fun _ => 1) (fun j : Fin 4 => quanta 0 1 j) E0 E1 E2 from hE)
    have e := single_sum (xSpec noneOut 4 crossFreq (fun _ _ _ => 0) (fun _ _ _ _ => 0) crossZeta (fun _ => 1))
      (xSpec_symm _ _ _ _ _ _ _) crossFreq 4 0 (by omega)
    have er : (range 4).erase 0 = {1, 2, 3} := by decide
    have d : E0 + E1 + E2 - (G0 + G1 + G2) = crossFreq 0 + 2 * xSpec noneOut 4 crossFreq (fun _ _ _ => 0) (fun _ _ _ _ => 0)
        crossZeta (fun _ => 1) 0 0 + 1 / 2 * ∑ j ∈ (range 4).erase 0, xSpec noneOut 4 crossFreq (fun _ _ _ => 0) (fun _ _ _ _ => 0)
        crossZeta (fun _ => 1) 0 j := by
      rw [a0, a1, a2, g0, g1, g2]
      simp only [quanta, ite_self] at e ⊢
      linear_combination e
    rw [d, er]
    simp [xSpec, xkkSpec, xklSpec, sum_range_succ, crossFreq, crossZeta]
    norm_num

/-! ### Examples -/

theorem topLevels (w : Nat → ℝ) (w0 : w 0 = 900) (w1 : w 1 = 900) (w2 : w 2 = 800) :
    (∀ i < 3, 0 < w i) ∧ NoResonance 3 w ∧
    ∀ m : Nat → Nat, ∑ i ∈ range 3, w i * m i = ((900 * (m 0 + m 1) + 800 * m 2 : Nat) : ℝ) := by
  refine ⟨fun i hi => ?_, fun i j k hi hj hk => ?_, fun m => ?_⟩
  · interval_cases i <;> norm_num [w0, w1, w2]
  · interval_cases i <;> interval_cases j <;> interval_cases k <;> norm_num [w0, w1, w2]
  · simp [sum_range_succ, w0, w1, w2]
    ring

/-- The energies exist. -/
theorem top_exists {s p w B : Nat → ℝ} {ax : Nat} {φ ζ : Nat → Nat → Nat → ℝ} {ψ : Nat → Nat → Nat → Nat → ℝ}
    (hT : Threefold 3 [2] [(0, 1)] s p ax w φ ψ ζ B) (w0 : w 0 = 900) (w1 : w 1 = 900) (w2 : w 2 = 800) :
    (∃ G0 G1 G2, VibEnergy w φ ψ ζ B (fun _ : Fin 3 => 0) G0 G1 G2) ∧
    ∀ c < 3, ∃ E0 E1 E2, VibEnergy w φ ψ ζ B (fun j : Fin 3 => if (j : Nat) = c then 1 else 0) E0 E1 E2 := by
  obtain ⟨-, -, lev⟩ := topLevels w w0 w1 w2
  have ex : ∀ n : Nat → Nat, n 0 = 0 → n 1 = 0 → n 2 ≤ 1 → ∃ E0 E1 E2, VibEnergy w φ ψ ζ B (fun i : Fin 3 => n i) E0 E1 E2 := by
    intro n a0 a1 a2
    refine c102_exists 3 w _ _ _ _ n fun m hm i hi => ?_
    rw [lev, lev, Nat.cast_inj] at hm
    interval_cases i <;> omega
  refine ⟨ex (fun _ => 0) rfl rfl (by norm_num), fun c hc => ?_⟩
  by_cases h2 : c = 2
  · subst h2
    exact ex (fun j => if j = 2 then 1 else 0) rfl rfl le_rfl
  · refine c105_exists 3 _ _ _ _ _ _ _ _ _ _ hT (0, 1) (by simp) (fun m hm => ?_) c (by simp only; omega)
    rw [lev, show w (0, 1).1 = ((900 : Nat) : ℝ) by simpa using w0, Nat.cast_inj] at hm
    have : m 2 = 0 ∧ ((m 0 = 1 ∧ m 1 = 0) ∨ (m 0 = 0 ∧ m 1 = 1)) := by omega
    obtain ⟨c2, ⟨c0, c1⟩ | ⟨c0, c1⟩⟩ := this
    · left
      intro i hi
      interval_cases i <;> simp [c0, c1, c2]
    · right
      intro i hi
      interval_cases i <;> simp [c0, c1, c2]

/-- The hypotheses of `c105_fundamentals_partial` are met, with cubic, quartic and Coriolis couplings of all kinds, and the
energies of which it speaks exist. -/
example : ∃ (modes : List Mode) (w : Nat → ℝ) (x g : Mat ℝ) (e0 : ℝ) (harms funds : List ℝ) (G0 G1 G2 : ℝ) (E : Nat → ℝ × ℝ × ℝ),
    xcals .prolateSymmTop (topQuartic 5 7) w (topCubic 10 20 30) (topZeta fun _ => 1) (fun a => if a = 2 then 5 else 3) [] []
      modes (fun _ _ => 0) = some (x, g, e0) ∧
    CouplingAxis (Rotor.prolateSymmTop = .linear) ((degPairs modes).map (·.2)) (fun _ _ => 0) 1 ∧
    Threefold 3 (nonDeg modes) (degPairs modes) (fun _ => 1) topSign 1 w (topCubic 10 20 30) (topQuartic 5 7)
      (topZeta fun _ => 1) (fun a => if a = 2 then 5 else 3) ∧
    Symm3 3 (topCubic 10 20 30) ∧ Symm4 3 (topQuartic 5 7) ∧
    (∀ a k l, k < 3 → l < 3 → topZeta (fun _ => 1) k l a = -topZeta (fun _ => 1) l k a) ∧
    (∀ i < 3, 0 < w i) ∧ NoResonance 3 w ∧
    (∀ k ∈ nonDeg modes, topSign k = 1 ∨ ∀ t ∈ degPairs modes, ∀ u ∈ degPairs modes, topCubic 10 20 30 k t.1 u.2 = 0) ∧
    makeSymFunds modes w x (some g) = some (harms, funds) ∧ nonDeg modes = [2] ∧ degPairs modes = [(0, 1)] ∧
    VibEnergy w (topCubic 10 20 30) (topQuartic 5 7) (topZeta fun _ => 1) (fun a => if a = 2 then 5 else 3)
      (fun _ : Fin 3 => 0) G0 G1 G2 ∧
    ∀ c < 3, VibEnergy w (topCubic 10 20 30) (topQuartic 5 7) (topZeta fun _ => 1) (fun a => if a = 2 then 5 else 3)
      (fun j : Fin 3 => if (j : Nat) = c then 1 else 0) (E c).1 (E c).2.1 (E c).2.2 := by
  let w : Nat → ℝ := fun i => if i = 2 then 800 else 900
  obtain ⟨x, g, e0, hx⟩ := xcals_runs (rotor := .prolateSymmTop) (by decide) (topQuartic 5 7) w (topCubic 10 20 30)
    (topZeta fun _ => 1) (fun a => if a = 2 then 5 else 3) [] [] [.i2 0 1, .i1 2] (fun _ _ => 0)
  have n1 : nonDeg [.i2 0 1, .i1 2] = [2] := rfl
  have n2 : degPairs [.i2 0 1, .i1 2] = [(0, 1)] := rfl
  have w0 : w 0 = 900 := by simp [w]
  have w1 : w 1 = 900 := by simp [w]
  have w2 : w 2 = 800 := by simp [w]
  obtain ⟨hp, hw, -⟩ := topLevels w w0 w1 w2
  have hT := top_threefold 10 20 30 5 7 (fun _ => 1) w (fun a => if a = 2 then 5 else 3) (fun _ _ => .inl rfl) (by rw [w0, w1]) rfl
  obtain ⟨⟨G0, G1, G2, hG⟩, hE⟩ := top_exists hT w0 w1 w2
  have hE' : ∀ c, ∃ E : ℝ × ℝ × ℝ, c < 3 → VibEnergy w (topCubic 10 20 30) (topQuartic 5 7) (topZeta fun _ => 1)
      (fun a => if a = 2 then 5 else 3) (fun j : Fin 3 => if (j : Nat) = c then 1 else 0) E.1 E.2.1 E.2.2 := by
    intro c
    by_cases hc : c < 3
    · obtain ⟨E0, E1, E2, h⟩ := hE c hc
      exact ⟨⟨E0, E1, E2⟩, fun _ => h⟩
    · exact ⟨0, fun h => absurd h hc⟩
  choose E hE' using hE'
  refine ⟨_, w, x, g, e0, _, _, G0, G1, G2, E, hx, ?_, ?_, topCubic_symm _ _ _, topQuartic_symm _ _,
    fun a k l hk hl => topZeta_anti _ k l a hk hl, hp, hw, ?_, rfl, n1, n2, hG, hE'⟩
  · refine ⟨le_rfl, iff_of_false (by decide) fun h => ?_⟩
    have := h.2.1 1 (by simp)
    norm_num at this
  · rw [n1, n2]
    simpa using hT
  · rw [n1]
    intro k hk
    left
    simp only [List.mem_singleton] at hk
    subst hk
    simp [topSign]

/-- A symmetric top of three atoms. -/
noncomputable def exampleThree : SpectroIn ℝ :=
  { exampleLine with nvib := 3, i2vib := 6, rotor := .oblateSymmTop, linear := false, axisOrder := 3, buddy := some 1,
                     rotcon := fun a => if a = 2 then 3 else 5 }

/-- The hypotheses of `c105_run_partial` are met by a run of a symmetric top with an anharmonic non-degenerate mode and
Coriolis couplings between all three modes, and the energies of which it speaks exist. -/
theorem threefold_run_example : ∃ (fc2 : Mat ℝ) (out hout : Output ℝ Nat) (s p : Nat → ℝ) (ax : Nat) (G0 G1 G2 : ℝ) (E : Nat → ℝ × ℝ × ℝ),
    let f3x : T3 ℝ := fun i j k => if i = 2 ∧ j = 2 ∧ k = 2 then 1 else 0
    let f4x : T4 ℝ := fun i j k l => if i = 2 ∧ j = 2 ∧ k = 2 ∧ l = 2 then 1 else 0
    Symm3 exampleThree.n3n f3x ∧ Symm4 exampleThree.n3n f4x ∧
    run exampleThree (turnedOracles 9 id (3 / 5) (4 / 5)) (.quartic fc2 f3x f4x) = some out ∧
    run exampleThree (turnedOracles 9 id (3 / 5) (4 / 5)) (.harmonic fc2) = some hout ∧
    (out.resonances.fermi1 = [] ∧ out.resonances.fermi2 = []) ∧
    (∀ i < 3, 0 < entryOf hout.harms i) ∧ NoResonance 3 (entryOf hout.harms) ∧
    nonDeg out.resonances.modes = [2] ∧ degPairs out.resonances.modes = [(0, 1)] ∧
    let w := entryOf hout.harms
    let φ := cubicField 9 exampleThree.axes f3x w out.lx
    let ψ := quarticField 9 exampleThree.axes f4x w out.lx
    let ζ := zetaField 3 out.lxm
    let one := nonDeg out.resonances.modes
    let two := degPairs out.resonances.modes
    Threefold 3 one two s p ax w φ ψ ζ exampleThree.rotcon ∧
    CouplingAxis (exampleThree.rotor = .linear) (two.map (·.2))
      (fun j c => inertiaField 3 exampleThree.pos exampleThree.weights out.lxm j (if c = 3 then 0 else 1) 2) ax ∧
    (∀ k ∈ one, p k = 1 ∨ ∀ t ∈ two, ∀ u ∈ two, φ k t.1 u.2 = 0) ∧
    VibEnergy w φ ψ ζ exampleThree.rotcon (fun _ : Fin 3 => 0) G0 G1 G2 ∧
    ∀ c < 3, VibEnergy w φ ψ ζ exampleThree.rotcon (fun j : Fin 3 => if (j : Nat) = c then 1 else 0)
      (E c).1 (E c).2.1 (E c).2.2 := by
  have hp : ∀ i < 9, id i < 9 := fun i hi => hi
  let f3x : T3 ℝ := fun i j k => if i = 2 ∧ j = 2 ∧ k = 2 then 1 else 0
  let f4x : T4 ℝ := fun i j k l => if i = 2 ∧ j = 2 ∧ k = 2 ∧ l = 2 then 1 else 0
  obtain ⟨out, hout, h, hh, el, -, har, -, hcol⟩ := turned_facts (n := 9) (p := id) (c := 3 / 5) (t := 4 / 5) hp (fun _ => rfl)
    (by norm_num) (by omega) (by omega) exampleThree rfl rfl rfl rfl (.inl rfl) (by decide) (by decide) rfl (.inr rfl)
    rfl rfl (by norm_num) f3x f4x
  have el' : out.lx = hout.lx := (c57_same _ _ _ _ _ hout out hh h).2.2.1
  have w0 : entryOf hout.harms 0 = 900 := by rw [har 0 (by decide)]; norm_num [pairLevels]
  have w1 : entryOf hout.harms 1 = 900 := by rw [har 1 (by decide)]; norm_num [pairLevels]
  have w2 : entryOf hout.harms 2 = 800 := by rw [har 2 (by decide)]; norm_num [pairLevels]
  have hS3 : Symm3 exampleThree.n3n f3x := by
    intro a b c _ _ _
    simp only [f3x]
    constructor <;> (congr 1; simp only [eq_iff_iff]; tauto)
  have hS4 : Symm4 exampleThree.n3n f4x := by
    intro a b c d _ _ _ _
    simp only [f4x]
    refine ⟨?_, ?_, ?_⟩ <;> (congr 1; simp only [eq_iff_iff]; tauto)
  obtain ⟨m, F4, hm, hF, hfin⟩ := run_quartic h
  obtain ⟨m', hm', -, -, -, hfr⟩ := harmonic_facts hh
  obtain rfl : m = m' := Option.some.inj (hm.symm.trans hm')
  obtain ⟨r, x, hf, zc, v, v', hr, hx, hff, -, hvec, hvec', -, hfu, -, -, -, -, e1, e2, -, rfl⟩ := finish_parts hfin
  obtain ⟨t, -, hmd, -, -, -, -, hf1, hf2⟩ := restst_parts hr
  have hfr' : ∀ i < 3, vecOf m.freq i = entryOf hout.harms i := hfr
  have v0 : vecOf m.freq 0 = 900 := by rw [hfr' 0 (by omega), w0]
  have v1 : vecOf m.freq 1 = 900 := by rw [hfr' 1 (by omega), w1]
  have v2 : vecOf m.freq 2 = 800 := by rw [hfr' 2 (by omega), w2]
  have hmodes : out.resonances.modes = [.i2 0 1, .i1 2] := by
    rw [hmd]
    show degModes .oblateSymmTop 3 (vecOf m.freq) = _
    have ht : degTriples 3 (vecOf m.freq) = [] := by
      have e : incTriples 3 = [(0, 1, 2)] := rfl
      rw [degTriples, e]
      norm_num [close, DEG_TOL, lt_real, abs_real, lit_real, List.filter_cons, v0, v1, v2]
    have hp : degDoubles 3 (vecOf m.freq) = [(0, 1)] := by
      have e : incPairs 3 = [(0, 1), (0, 2), (1, 2)] := rfl
      rw [degDoubles, e, ht]
      norm_num [close, DEG_TOL, lt_real, abs_real, lit_real, List.filter_cons, inTriples, v0, v1, v2]
    rw [degModes, ht, hp]
    rfl
  have n1 : nonDeg out.resonances.modes = [2] := by rw [hmodes]; rfl
  have n2 : degPairs out.resonances.modes = [(0, 1)] := by rw [hmodes]; rfl
  have he1 : out.resonances.fermi1 = [] := by
    rw [show exampleThree.rotor = .oblateSymmTop from rfl, fermi1] at hf1
    simp only [part_nonDeg, part_degPairs, n1, n2] at hf1
    rw [← Option.some.inj hf1]
    norm_num [ferm1Test, FTOL1, le_real, abs_real, lit_real, v0, v1, v2]
  have he2 : out.resonances.fermi2 = [] := by
    rw [show exampleThree.rotor = .oblateSymmTop from rfl, fermi2] at hf2
    simp only [part_nonDeg, part_degPairs, n1, n2] at hf2
    rw [← Option.some.inj hf2]
    rfl
  obtain ⟨hpos, hnr, -⟩ := topLevels _ w0 w1 w2
  choose! e he hc using hcol
  have he' : ∀ i < 3, e i = 1 ∨ e i = -1 := he
  have hc' : ∀ i < 3, ∀ r < 9, columnEntry out.lxm i r = (if r = i then e i else 0) ∧
      columnEntry out.lx i r = if r = i then e i else 0 := by rw [el, el']; exact hc
  have hax : exampleThree.axes = idAxes := rfl
  have g3 : ∀ u v t : Nat → ℝ, form3 9 f3x u v t = u 2 * v 2 * t 2 := by
    intro u v t
    unfold form3
    rw [sum_eq_single 2 (fun i _ hi => sum_eq_zero fun j _ => sum_eq_zero fun k _ => by simp [f3x, hi]) (by simp),
      sum_eq_single 2 (fun j _ hj => sum_eq_zero fun k _ => by simp [f3x, hj]) (by simp),
      sum_eq_single 2 (fun k _ hk => by simp [f3x, hk]) (by simp)]
    simp [f3x]
  have g4 : ∀ u v t r : Nat → ℝ, form4 9 f4x u v t r = u 2 * v 2 * t 2 * r 2 := by
    intro u v t r
    unfold form4
    rw [sum_eq_single 2 (fun i _ hi => sum_eq_zero fun j _ => sum_eq_zero fun k _ => sum_eq_zero fun l _ => by simp [f4x, hi])
      (by simp), sum_eq_single 2 (fun j _ hj => sum_eq_zero fun k _ => sum_eq_zero fun l _ => by simp [f4x, hj]) (by simp),
      sum_eq_single 2 (fun k _ hk => sum_eq_zero fun l _ => by simp [f4x, hk]) (by simp),
      sum_eq_single 2 (fun l _ hl => by simp [f4x, hl]) (by simp)]
    simp [f4x]
  have c2 : ∀ i < 3, applyAxes exampleThree.axes (columnEntry out.lx i) 2 = if i = 2 then e i else 0 := by
    intro i hi
    rw [hax, applyAxes_id, (hc' i hi 2 (by omega)).2]
    simp only [eq_comm]
  have p3 : ∀ i j k, i < 3 → j < 3 → k < 3 → cubicField 9 exampleThree.axes f3x (entryOf hout.harms) out.lx i j k =
      topCubic (cubicField 9 exampleThree.axes f3x (entryOf hout.harms) out.lx 2 2 2) 0 0 i j k := by
    intro i j k hi hj hk
    by_cases hall : i = 2 ∧ j = 2 ∧ k = 2
    · obtain ⟨rfl, rfl, rfl⟩ := hall
      simp [topCubic]
    · have : topCubic (cubicField 9 exampleThree.axes f3x (entryOf hout.harms) out.lx 2 2 2) 0 0 i j k = 0 := by
        unfold topCubic
        rw [if_neg hall]
        simp
      rw [this, cubicField, g3, c2 i hi, c2 j hj, c2 k hk]
      by_cases h1 : i = 2 <;> by_cases h2 : j = 2 <;> by_cases h3 : k = 2 <;> simp [h1, h2, h3] <;> exact absurd ⟨h1, h2, h3⟩ hall
  have p4 : ∀ i j k l, i < 3 → j < 3 → k < 3 → l < 3 → quarticField 9 exampleThree.axes f4x (entryOf hout.harms) out.lx i j k l =
      topQuartic (quarticField 9 exampleThree.axes f4x (entryOf hout.harms) out.lx 2 2 2 2) 0 i j k l := by
    intro i j k l hi hj hk hl
    by_cases hall : i = 2 ∧ j = 2 ∧ k = 2 ∧ l = 2
    · obtain ⟨rfl, rfl, rfl, rfl⟩ := hall
      simp [topQuartic]
    · have : topQuartic (quarticField 9 exampleThree.axes f4x (entryOf hout.harms) out.lx 2 2 2 2) 0 i j k l = 0 := by
        unfold topQuartic
        rw [if_neg hall]
        simp
      rw [this, quarticField, g4, c2 i hi, c2 j hj, c2 k hk, c2 l hl]
      by_cases h1 : i = 2 <;> by_cases h2 : j = 2 <;> by_cases h3 : k = 2 <;> by_cases h4 : l = 2 <;>
        simp [h1, h2, h3, h4] <;> exact absurd ⟨h1, h2, h3, h4⟩ hall
  have pz : ∀ i j a, i < 3 → j < 3 → a < 3 → zetaField 3 out.lxm i j a = topZeta e i j a := by
    intro i j a hi hj ha
    unfold zetaField angularForm
    have q : ∀ k < 3, ∀ r, r < 9 → columnEntry out.lxm k r = if r = k then e k else 0 := fun k hk r hr => (hc' k hk r hr).1
    simp only [sum_range_succ, sum_range_zero]
    rw [q i hi _ (by omega), q i hi _ (by omega), q i hi _ (by omega), q i hi _ (by omega), q i hi _ (by omega), q i hi _ (by omega),
      q j hj _ (by omega), q j hj _ (by omega), q j hj _ (by omega), q j hj _ (by omega), q j hj _ (by omega), q j hj _ (by omega)]
    interval_cases i <;> interval_cases j <;> interval_cases a <;> simp [topZeta]
  have hT := (top_threefold (cubicField 9 exampleThree.axes f3x (entryOf hout.harms) out.lx 2 2 2) 0 0
    (quarticField 9 exampleThree.axes f4x (entryOf hout.harms) out.lx 2 2 2 2) 0 e (entryOf hout.harms) exampleThree.rotcon he'
    (by rw [w0, w1]) rfl).congr (fun _ _ => rfl) p3 p4 pz
  obtain ⟨⟨G0, G1, G2, hG⟩, hE⟩ := top_exists hT w0 w1 w2
  generalize hφ : cubicField 9 exampleThree.axes f3x (entryOf hout.harms) out.lx = φ at *
  generalize hψ : quarticField 9 exampleThree.axes f4x (entryOf hout.harms) out.lx = ψ at *
  generalize hζ : zetaField 3 out.lxm = ζ at *
  have hE' : ∀ c, ∃ E : ℝ × ℝ × ℝ, c < 3 → VibEnergy (entryOf hout.harms) φ ψ ζ exampleThree.rotcon
      (fun j : Fin 3 => if (j : Nat) = c then 1 else 0) E.1 E.2.1 E.2.2 := by
    intro c
    by_cases hc : c < 3
    · obtain ⟨E0, E1, E2, h⟩ := hE c hc
      exact ⟨⟨E0, E1, E2⟩, fun _ => h⟩
    · exact ⟨0, fun h => absurd h hc⟩
  choose E hE' using hE'
  refine ⟨_, out, hout, fun _ => e 0 * e 1, topSign, 1, G0, G1, G2, E, hS3, hS4, h, hh, ⟨he1, he2⟩, hpos, hnr, n1, n2, ?_⟩
  simp only [f3x, f4x] at hφ hψ
  dsimp only
  rw [n1, n2, hφ, hψ, hζ]
  refine ⟨hT, ⟨le_rfl, iff_of_false (by decide) fun hcon => ?_⟩, fun k hk => .inl ?_, hG, hE'⟩
  · have := hcon.2.1 1 (by simp)
    simp only at this
    rw [if_pos trivial, inertiaField, if_neg (by decide)] at this
    rw [sum_eq_zero fun a ha => ?_] at this
    · norm_num at this
    · have ha := mem_range.1 ha
      rw [show max 0 2 = 2 from rfl, (hc' 1 (by omega) _ (by omega)).1, if_neg (by omega), mul_zero]
  · simp only [List.mem_singleton] at hk
    subst hk
    simp [topSign]

end Verif
