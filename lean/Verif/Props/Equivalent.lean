import Verif.Lemmas.EquivalentExample
import Verif.Props.ThreefoldRun

/-!
# C106: threefold symmetry of the molecule

The molecule has the symmetry operations `(π, thirdTurn)` and `(ρ, flipAxes e)` of `Verif.Spec.Equivalent`: a threefold axis
and a mirror plane through it (`e = 1`) or a perpendicular half-turn (`e = -1`).
-/

namespace Verif

open Finset Osc

variable {ι : Type}

/-- What a run and its harmonic part have in common, in terms of the frequencies. -/
theorem equivalent_facts {sp : SpectroIn ℝ} {o : Oracles ℝ ι} {fc2 : Mat ℝ} {f3x : T3 ℝ} {f4x : T4 ℝ} {out hout : Output ℝ ι}
    (hr : sp.rotor.isSymTop = true) (hn : sp.n3n = 3 * sp.natom) (hv : sp.nvib ≤ sp.n3n) (hw : ∀ a < sp.natom, 0 < sp.weights a)
    (he : ∀ m, Symm2 sp.n3n m → IsEigen sp.n3n m (o.eigen m))
    (h : run sp o (.quartic fc2 f3x f4x) = some out) (hh : run sp o (.harmonic fc2) = some hout)
    (hd : Separated sp.nvib (if sp.linear then 1 else 0.1) (entryOf hout.harms)) (hp : ∀ i < sp.nvib, 1 / 10 < entryOf hout.harms i)
    (h3 : ∀ i j k, i < sp.nvib → j < sp.nvib → k < sp.nvib → i ≠ j → i ≠ k → j ≠ k →
      entryOf hout.harms i = entryOf hout.harms j → entryOf hout.harms j ≠ entryOf hout.harms k) :
    Separated sp.nvib (if sp.linear then 1 else 0.05) (entryOf hout.harms) ∧ out.lx = hout.lx ∧ out.lxm = hout.lxm ∧
    (∀ i < sp.nvib, ∀ r < 3 * sp.natom, columnEntry out.lxm i r = Real.sqrt (sp.weights (r / 3)) * columnEntry out.lx i r) ∧
    (nonDeg out.resonances.modes ++ (degPairs out.resonances.modes).map (·.1) ++
      (degPairs out.resonances.modes).map (·.2)).Perm (List.range sp.nvib) ∧
    (∀ k, k ∈ nonDeg out.resonances.modes → k < sp.nvib ∧ ∀ j < sp.nvib, j ≠ k → entryOf hout.harms j ≠ entryOf hout.harms k) ∧
    ∀ t : Nat × Nat, t ∈ degPairs out.resonances.modes ↔ t.1 < t.2 ∧ t.2 < sp.nvib ∧ entryOf hout.harms t.1 = entryOf hout.harms t.2 := by
  have hd1 : Separated sp.nvib (if sp.linear then 1 else 0.05) (entryOf hout.harms) := fun i j hi hj hij => by
    refine hd i j hi hj (lt_of_lt_of_le hij ?_)
    split <;> norm_num
  have hd2 : Separated sp.nvib (1 / 10) (entryOf hout.harms) := fun i j hi hj hij => by
    refine hd i j hi hj (lt_of_lt_of_le hij ?_)
    split <;> norm_num
  have et : (if sp.linear then 1 else 0.05 : ℝ) = alignTol sp.linear := by
    rw [alignTol_real]
    split <;> norm_num
  obtain ⟨m, F4, hm, hF, hfin⟩ := run_quartic h
  obtain ⟨m', hm', t1, t2, -, hfr⟩ := harmonic_facts hh
  obtain rfl : m = m' := Option.some.inj (hm.symm.trans hm')
  obtain ⟨r, x, hf, zc, v, v', hrs, hx, hff, -, hvec, hvec', -, hfu, -, -, -, -, e1, e2, -, e3⟩ := finish_parts hfin
  have lx1 : out.lx = hout.lx := by rw [e2]; exact Option.some.inj (hvec'.symm.trans t2)
  have lxm1 : out.lxm = hout.lxm := by rw [e1]; exact Option.some.inj (hvec.symm.trans t1)
  obtain ⟨-, -, mdl, -⟩ := restst_parts hrs
  have exact1 := fun (a b : Nat) (ha : a < sp.nvib) (hb : b < sp.nvib) (hab : |vecOf m.freq a - vecOf m.freq b| < alignTol sp.linear) =>
    show vecOf m.freq a = vecOf m.freq b by
      rw [hfr a ha, hfr b hb] at hab ⊢
      exact hd1 a b ha hb (by rw [et]; exact hab)
  obtain ⟨-, -, lxs, -⟩ := sym_modes_exact hr hn hv he hm exact1
  have md : out.resonances.modes = degModes sp.rotor sp.nvib (vecOf m.freq) := by rw [e3]; exact mdl
  obtain ⟨q1, q2, q3⟩ := degModes_parts hr (N := sp.nvib) (w := vecOf m.freq) (fun i hi => by rw [hfr i hi]; exact hp i hi)
    (fun i j hi hj hij => by
      rw [hfr i hi, hfr j hj] at hij ⊢
      exact hd2 i j hi hj hij)
    (fun i j k hi hj hk => by
      rw [hfr i hi, hfr j hj, hfr k hk]
      exact h3 i j k hi hj hk)
  rw [← md] at q1 q2 q3
  refine ⟨hd1, lx1, lxm1, fun i hi r hr' => ?_, q1, fun k hk => ?_, fun t => ?_⟩
  · rw [lx1, lxm1, columnEntry_toVec t1 i r (by omega) (by omega), columnEntry_toVec t2 i r (by omega) (by omega),
      lxs r i (by omega) (by omega)]
    have := Real.sqrt_pos.2 (hw (r / 3) (by omega))
    field_simp
  · obtain ⟨a, b⟩ := q2 k hk
    exact ⟨a, fun j hj hjk => by rw [← hfr j hj, ← hfr k a]; exact b j hj hjk⟩
  · rw [q3 t]
    refine and_congr_right fun a => and_congr_right fun b => ?_
    rw [hfr _ (by omega), hfr _ b]

/-- C106: if the molecule has a threefold axis and a mirror plane through it or a perpendicular half-turn, which bring every
atom to the place of an atom of the same mass and leave the force constants as they are, and if the eigensolver solves the
equations of motion, then the constants of the normal modes of a run have the symmetry that C105 asks for. Frequencies are
required to be at most twofold, equal if they are close, and not accidentally so, and the reference atom for the alignment of
the pairs to lie on the mirror plane or the axis of the half-turn and to move in the one component of each pair only. -/
theorem c106_threefold (sp : SpectroIn ℝ) (o : Oracles ℝ ι) (fc2 : Mat ℝ) (f3x : T3 ℝ) (f4x : T4 ℝ) (out hout : Output ℝ ι)
    (hr : sp.rotor.isSymTop = true) (hn : sp.n3n = 3 * sp.natom) (hv : sp.nvib ≤ sp.n3n)
    (hw : ∀ a < sp.natom, 0 < sp.weights a) (hax : Orthogonal3 sp.axes) (hB : sp.rotcon 0 = sp.rotcon 1)
    (h2 : Symm2 sp.n3n fc2) (he : ∀ m, Symm2 sp.n3n m → IsEigen sp.n3n m (o.eigen m))
    (h : run sp o (.quartic fc2 f3x f4x) = some out) (hh : run sp o (.harmonic fc2) = some hout)
    (hd : Separated sp.nvib (if sp.linear then 1 else 0.1) (entryOf hout.harms)) (hp : ∀ i < sp.nvib, 1 / 10 < entryOf hout.harms i)
    (hf : TwoFold sp.nvib sp.n3n (waveUnit ^ 2 * FACT2) fc2 sp.weights (entryOf hout.harms)
      (fun i => applyAxes sp.axes (columnEntry hout.lx i)))
    (π ρ : Nat → Nat) (e : ℝ) (hee : e = 1 ∨ e = -1)
    (hπ : SymmetryOf sp.natom sp.pos sp.weights sp.axes fc2 f3x f4x π thirdTurn)
    (hρ : SymmetryOf sp.natom sp.pos sp.weights sp.axes fc2 f3x f4x ρ (flipAxes e))
    (hdist : ∀ a < sp.natom, ∀ b < sp.natom, (∀ c < 3, sp.pos a c = sp.pos b c) → a = b)
    (hat : sp.iatom < sp.natom) (hon : sp.pos sp.iatom 1 = 0 ∧ (e = -1 → sp.pos sp.iatom 2 = 0))
    (hacc : ∀ i j, i < j → j < sp.nvib → entryOf hout.harms i = entryOf hout.harms j →
      ¬ ∀ r < sp.n3n, brought π thirdTurn (columnEntry hout.lx i) r = columnEntry hout.lx i r)
    (hal : ∀ i j, i < j → j < sp.nvib → entryOf hout.harms i = entryOf hout.harms j →
      columnEntry hout.lx i (3 * sp.iatom) ≠ 0 ∧ columnEntry hout.lx j (3 * sp.iatom) = 0 ∨
      e = -1 ∧ columnEntry hout.lx i (3 * sp.iatom + 2) = 0 ∧ columnEntry hout.lx j (3 * sp.iatom + 2) ≠ 0) :
    ∃ s p : Nat → ℝ, Threefold sp.nvib (nonDeg out.resonances.modes) (degPairs out.resonances.modes) s p (if e = 1 then 1 else 0)
      (entryOf hout.harms) (cubicField sp.n3n sp.axes f3x (entryOf hout.harms) out.lx)
      (quarticField sp.n3n sp.axes f4x (entryOf hout.harms) out.lx) (zetaField sp.natom out.lxm) sp.rotcon ∧
      (∀ i < sp.nvib, ∀ r < sp.n3n, brought ρ (flipAxes e) (columnEntry out.lx i) r = p i * columnEntry out.lx i r) ∧
      ∀ i < sp.nvib, (p i = 1 ↔ ∀ r < sp.n3n, brought ρ (flipAxes e) (columnEntry hout.lx i) r = columnEntry hout.lx i r) := by
  have hd1 : Separated sp.nvib (if sp.linear then 1 else 0.05) (entryOf hout.harms) := fun i j hi hj hij => by
    refine hd i j hi hj (lt_of_lt_of_le hij ?_)
    split <;> norm_num
  obtain ⟨N1, N2⟩ := c100_normal_modes sp o fc2 hout hr hn hv hw hax h2 he hh hd1
  obtain ⟨P1, -, -⟩ := twofold_pair hf N1 N2
  obtain ⟨-, lx1, lxm1, hlx, q1, q2, q3⟩ := equivalent_facts hr hn hv hw he h hh hd hp P1
  rw [hn] at N1 N2 hf hacc ⊢
  obtain ⟨π', ρ', b1, b2, i1, i2, i3, i4, s, p, hs, hpm, c1, c2, c3, c4⟩ :=
    modes_turn hee hπ hρ hdist hax hat hon N1 N2 hf hacc hal
  rw [← lx1] at c1 c2 c3
  refine ⟨s, p, threefold_of hπ hρ b1 b2 i1 i2 i3 i4 ?_ (fun i hi => lt_trans (by norm_num) (hp i hi)) hlx q1 (fun t _ => hs _) hpm
    (fun t ht => ?_) (fun t ht => ((q3 t).1 ht).2.2.symm) hB (fun k hk => ?_) (fun t ht => ?_) (fun t ht => ?_) c3, c3, c4⟩
  · rcases hee with rfl | rfl
    · exact .inl ⟨rfl, if_pos rfl⟩
    · exact .inr ⟨rfl, if_neg (by norm_num)⟩
  · obtain ⟨a, b, c⟩ := (q3 t).1 ht
    exact (c2 _ _ a b c).1
  · obtain ⟨a, b⟩ := q2 k hk
    exact c1 k a b
  · obtain ⟨a, b, c⟩ := (q3 t).1 ht
    exact (c2 _ _ a b c).2.1
  · obtain ⟨a, b, c⟩ := (q3 t).1 ht
    exact (c2 _ _ a b c).2.2

/-- The products of inertia that an odd mode cannot change: with the axis of the half-turn or in the mirror plane. -/
theorem odd_inertia {natom : Nat} {mass : Nat → ℝ} {pos axes f2 : Nat → Nat → ℝ} {f3 : Nat → Nat → Nat → ℝ}
    {f4 : Nat → Nat → Nat → Nat → ℝ} {ρ : Nat → Nat} {e : ℝ} {lx lxm : List (List ℝ)} {j c : Nat}
    (hρ : SymmetryOf natom pos mass axes f2 f3 f4 ρ (flipAxes e)) (hec : e = 1 ∧ c = 0 ∨ e = -1 ∧ c = 1)
    (hdist : ∀ a < natom, ∀ b < natom, (∀ c < 3, pos a c = pos b c) → a = b)
    (hlx : ∀ r < 3 * natom, columnEntry lxm j r = Real.sqrt (mass (r / 3)) * columnEntry lx j r)
    (hodd : ∀ r < 3 * natom, brought ρ (flipAxes e) (columnEntry lx j) r = -1 * columnEntry lx j r) :
    inertiaField natom pos mass lxm j c 2 = 0 := by
  have he : e = 1 ∨ e = -1 := hec.imp And.left And.left
  obtain ⟨p2, -⟩ := (hρ.places.mul hρ.places).one (flip_square he) hdist
  have key : ∀ a < natom, Real.sqrt (mass (ρ a)) * pos (ρ a) c * columnEntry lxm j (3 * ρ a + 2) =
      -(Real.sqrt (mass a) * pos a c * columnEntry lxm j (3 * a + 2)) := by
    intro a ha
    have hb := hρ.atom a ha
    have o := hodd (3 * a + 2) (by omega)
    rw [carried_at _ _ _ _ _ (by norm_num)] at o
    have x := hρ.places.2 a ha c (by omega)
    rw [hlx _ (by omega), hlx _ (by omega), show (3 * ρ a + 2) / 3 = ρ a by omega, show (3 * a + 2) / 3 = a by omega, hρ.mass a ha]
    rcases hec with ⟨rfl, rfl⟩ | ⟨rfl, rfl⟩
    · simp [flipAxes] at o x
      rw [o, x]; ring
    · simp [flipAxes] at o x
      rw [o, x]; ring
  have sum0 : ∑ a ∈ range natom, Real.sqrt (mass a) * pos a c * columnEntry lxm j (3 * a + 2) = 0 := by
    have r := renamed hρ.atom hρ.atom p2 p2 (fun a => Real.sqrt (mass a) * pos a c * columnEntry lxm j (3 * a + 2))
    rw [sum_congr rfl fun a ha => key a (mem_range.1 ha), sum_neg_distrib] at r
    linarith
  have hc : c ≤ 1 := by omega
  unfold inertiaField
  rw [if_neg (by omega), show min c 2 = c by omega, show max c 2 = 2 by omega, sum0, mul_zero, neg_zero]

/-- C106, run: let a molecule have a threefold axis and a mirror plane through it, or a perpendicular half-turn, which bring
every atom to the place of an atom of the same mass and leave the force constants as they are. Let the run find no Fermi
resonances, and let the frequencies be at most twofold, equal if they are close, and not accidentally so. The reference atom
lies on the mirror plane or on the axis of the half-turn, and moves in the one component of each pair only. Without a mirror
plane, let the second component of each pair change the product of inertia by which the code finds the axis of the half-turn.
Then the reported fundamentals are, to second order of perturbation theory for the vibrational Hamiltonian of the molecule,
the differences between the energies of the states with one quantum and that of the ground state: first those of the
non-degenerate modes, then one for each pair, the same for both components.
Missing, as in C105: odd non-degenerate modes which couple with two degenerate ones, see `c105_violated`; and pairs for which
the code takes the wrong axis, see `c105_axis_violated`. -/
theorem c106_run_partial (sp : SpectroIn ℝ) (o : Oracles ℝ ι) (fc2 : Mat ℝ) (f3x : T3 ℝ) (f4x : T4 ℝ) (out hout : Output ℝ ι)
    (hr : sp.rotor.isSymTop = true) (hn : sp.n3n = 3 * sp.natom) (hv : sp.nvib ≤ sp.n3n) (h0 : 0 < sp.nvib)
    (hw : ∀ a < sp.natom, 0 < sp.weights a) (hax : Orthogonal3 sp.axes) (hB : sp.rotcon 0 = sp.rotcon 1)
    (h2 : Symm2 sp.n3n fc2) (h3 : Symm3 sp.n3n f3x) (h4 : Symm4 sp.n3n f4x)
    (he : ∀ m, Symm2 sp.n3n m → IsEigen sp.n3n m (o.eigen m))
    (h : run sp o (.quartic fc2 f3x f4x) = some out) (hh : run sp o (.harmonic fc2) = some hout)
    (hnf : out.resonances.fermi1 = [] ∧ out.resonances.fermi2 = [])
    (hd : Separated sp.nvib (if sp.linear then 1 else 0.1) (entryOf hout.harms)) (hp : ∀ i < sp.nvib, 1 / 10 < entryOf hout.harms i)
    (hnr : NoResonance sp.nvib (entryOf hout.harms))
    (hf : TwoFold sp.nvib sp.n3n (waveUnit ^ 2 * FACT2) fc2 sp.weights (entryOf hout.harms)
      (fun i => applyAxes sp.axes (columnEntry hout.lx i)))
    (π ρ : Nat → Nat) (e : ℝ) (hee : e = 1 ∨ e = -1)
    (hπ : SymmetryOf sp.natom sp.pos sp.weights sp.axes fc2 f3x f4x π thirdTurn)
    (hρ : SymmetryOf sp.natom sp.pos sp.weights sp.axes fc2 f3x f4x ρ (flipAxes e))
    (hdist : ∀ a < sp.natom, ∀ b < sp.natom, (∀ c < 3, sp.pos a c = sp.pos b c) → a = b)
    (hat : sp.iatom < sp.natom) (hon : sp.pos sp.iatom 1 = 0 ∧ (e = -1 → sp.pos sp.iatom 2 = 0))
    (hacc : ∀ i j, i < j → j < sp.nvib → entryOf hout.harms i = entryOf hout.harms j →
      ¬ ∀ r < sp.n3n, brought π thirdTurn (columnEntry hout.lx i) r = columnEntry hout.lx i r)
    (hal : ∀ i j, i < j → j < sp.nvib → entryOf hout.harms i = entryOf hout.harms j →
      columnEntry hout.lx i (3 * sp.iatom) ≠ 0 ∧ columnEntry hout.lx j (3 * sp.iatom) = 0 ∨
      e = -1 ∧ columnEntry hout.lx i (3 * sp.iatom + 2) = 0 ∧ columnEntry hout.lx j (3 * sp.iatom + 2) ≠ 0)
    (haxis : e = -1 → sp.rotor ≠ .linear ∧
      (∃ i j, i < j ∧ j < sp.nvib ∧ entryOf hout.harms i = entryOf hout.harms j) ∧
      ∀ i j, i < j → j < sp.nvib → entryOf hout.harms i = entryOf hout.harms j →
        1 / 1000000 < |inertiaField sp.natom sp.pos sp.weights hout.lxm j 0 2|)
    (hodd : ∀ k < sp.nvib, (∀ j < sp.nvib, j ≠ k → entryOf hout.harms j ≠ entryOf hout.harms k) →
      (∀ r < sp.n3n, brought ρ (flipAxes e) (columnEntry hout.lx k) r = columnEntry hout.lx k r) ∨
      ∀ i i' j j', i < i' → i' < sp.nvib → entryOf hout.harms i = entryOf hout.harms i' →
        j < j' → j' < sp.nvib → entryOf hout.harms j = entryOf hout.harms j' →
        cubicField sp.n3n sp.axes f3x (entryOf hout.harms) hout.lx k i j' = 0) :
    let w := entryOf hout.harms
    let φ := cubicField sp.n3n sp.axes f3x w out.lx
    let ψ := quarticField sp.n3n sp.axes f4x w out.lx
    let ζ := zetaField sp.natom out.lxm
    let one := nonDeg out.resonances.modes
    let two := degPairs out.resonances.modes
    (one ++ two.map (·.1) ++ two.map (·.2)).Perm (List.range sp.nvib) ∧
    ∀ G0 G1 G2, VibEnergy w φ ψ ζ sp.rotcon (fun _ : Fin sp.nvib => 0) G0 G1 G2 →
    (∀ q k : Nat, one[q]? = some k → ∀ E0 E1 E2,
      VibEnergy w φ ψ ζ sp.rotcon (fun j : Fin sp.nvib => if (j : Nat) = k then 1 else 0) E0 E1 E2 →
      out.funds[q]? = some (E0 + E1 + E2 - (G0 + G1 + G2))) ∧
    ∀ (q : Nat) (t : Nat × Nat), two[q]? = some t → ∀ c, c = t.1 ∨ c = t.2 → ∀ E0 E1 E2,
      VibEnergy w φ ψ ζ sp.rotcon (fun j : Fin sp.nvib => if (j : Nat) = c then 1 else 0) E0 E1 E2 →
      out.funds[one.length + q]? = some (E0 + E1 + E2 - (G0 + G1 + G2)) := by
  intro w φ ψ ζ one two
  obtain ⟨s, p, hT, flip, even⟩ := c106_threefold sp o fc2 f3x f4x out hout hr hn hv hw hax hB h2 he h hh hd hp hf π ρ e hee hπ hρ
    hdist hat hon hacc hal
  refine ⟨hT.modes, ?_⟩
  have P1 : ∀ i j k, i < sp.nvib → j < sp.nvib → k < sp.nvib → i ≠ j → i ≠ k → j ≠ k → w i = w j → w j ≠ w k := by
    have hd1 : Separated sp.nvib (if sp.linear then 1 else 0.05) (entryOf hout.harms) := fun i j hi hj hij => by
      refine hd i j hi hj (lt_of_lt_of_le hij ?_)
      split <;> norm_num
    obtain ⟨N1, N2⟩ := c100_normal_modes sp o fc2 hout hr hn hv hw hax h2 he hh hd1
    exact (twofold_pair hf N1 N2).1
  obtain ⟨-, lx1, lxm1, hlx, -, q2, q3⟩ := equivalent_facts hr hn hv hw he h hh hd hp P1
  refine c105_run_partial sp o fc2 f3x f4x out hout hr hn hv h0 h3 h4 h hh hnf (fun i hi => lt_trans (by norm_num) (hp i hi)) hnr s p
    (if e = 1 then 1 else 0) hT ?_ ?_
  · have od : ∀ t ∈ two, ∀ r < 3 * sp.natom, brought ρ (flipAxes e) (columnEntry out.lx t.2) r = -1 * columnEntry out.lx t.2 r :=
      fun t ht r hr' => by
        obtain ⟨a, b, c⟩ := (q3 t).1 ht
        rw [flip _ b r (by omega), (hT.components t ht).2]
    rcases hee with rfl | rfl
    · rw [if_pos rfl]
      refine ⟨le_rfl, ⟨fun q => absurd q (by norm_num), fun ⟨_, q1, j, hj, _⟩ => ?_⟩⟩
      have h1 := q1 j hj
      obtain ⟨t, ht, rfl⟩ := List.mem_map.1 hj
      obtain ⟨a, b, c⟩ := (q3 t).1 ht
      have h1 : 1 / 1000000 < |inertiaField sp.natom sp.pos sp.weights out.lxm t.2 0 2| := h1
      rw [odd_inertia hρ (.inl ⟨rfl, rfl⟩) hdist (hlx _ b) (od t ht), abs_zero] at h1
      norm_num at h1
    · rw [if_neg (by norm_num)]
      obtain ⟨l1, ⟨i, j, l2, l3, l4⟩, l5⟩ := haxis rfl
      refine ⟨by norm_num, ⟨fun _ => ⟨l1, fun j hj => ?_, j, List.mem_map.2 ⟨(i, j), (q3 (i, j)).2 ⟨l2, l3, l4⟩, rfl⟩, ?_⟩, fun _ => rfl⟩⟩
      · obtain ⟨t, ht, rfl⟩ := List.mem_map.1 hj
        obtain ⟨a, b, c⟩ := (q3 t).1 ht
        rw [lxm1]
        exact l5 _ _ a b c
      · show |inertiaField sp.natom sp.pos sp.weights out.lxm j 1 2| ≤ 1 / 1000000
        rw [odd_inertia hρ (.inr ⟨rfl, rfl⟩) hdist (hlx _ l3) (od (i, j) ((q3 (i, j)).2 ⟨l2, l3, l4⟩)), abs_zero]
        norm_num
  · intro k hk
    obtain ⟨a, b⟩ := q2 k hk
    rcases hodd k a b with q | q
    · exact .inl ((even k a).2 q)
    · refine .inr fun t ht u hu => ?_
      obtain ⟨t1, t2, t3⟩ := (q3 t).1 ht
      obtain ⟨u1, u2, u3⟩ := (q3 u).1 hu
      rw [lx1]
      exact q _ _ _ _ t1 t2 t3 u1 u2 u3

/-- A pyramid of four atoms. -/
noncomputable def examplePyramid : SpectroIn ℝ :=
  { exampleThree with natom := 4, n3n := 12, pos := fourPos }

/-- The hypotheses of `c106_threefold` and `c106_run_partial` are met by a run of a pyramid of four atoms with cubic and quartic
force constants, whose harmonic part is not aligned by the eigensolver, and the energies of which they speak exist. -/
example : ∃ (out hout : Output ℝ Nat) (G0 G1 G2 : ℝ) (E : Nat → ℝ × ℝ × ℝ),
    let fc2 := diagHessian coreLevels
    let f3x : T3 ℝ := topCubic 10 20 30
    let f4x : T4 ℝ := topQuartic 5 7
    let o := turnedOracles 12 id (3 / 5) (4 / 5)
    examplePyramid.rotor.isSymTop = true ∧ examplePyramid.n3n = 3 * examplePyramid.natom ∧ examplePyramid.nvib ≤ examplePyramid.n3n ∧
    Orthogonal3 examplePyramid.axes ∧ examplePyramid.rotcon 0 = examplePyramid.rotcon 1 ∧
    Symm2 12 fc2 ∧ Symm3 12 f3x ∧ Symm4 12 f4x ∧ (∀ m, Symm2 12 m → IsEigen 12 m (o.eigen m)) ∧
    run examplePyramid o (.quartic fc2 f3x f4x) = some out ∧ run examplePyramid o (.harmonic fc2) = some hout ∧
    (out.resonances.fermi1 = [] ∧ out.resonances.fermi2 = []) ∧
    Separated 3 (if examplePyramid.linear then 1 else 0.1) (entryOf hout.harms) ∧ (∀ i < 3, 1 / 10 < entryOf hout.harms i) ∧
    NoResonance 3 (entryOf hout.harms) ∧
    TwoFold 3 12 (waveUnit ^ 2 * FACT2) fc2 examplePyramid.weights (entryOf hout.harms)
      (fun i => applyAxes examplePyramid.axes (columnEntry hout.lx i)) ∧
    SymmetryOf 4 examplePyramid.pos examplePyramid.weights examplePyramid.axes fc2 f3x f4x fourTurn thirdTurn ∧
    SymmetryOf 4 examplePyramid.pos examplePyramid.weights examplePyramid.axes fc2 f3x f4x fourFlip (flipAxes 1) ∧
    (∀ a < 4, ∀ b < 4, (∀ c < 3, examplePyramid.pos a c = examplePyramid.pos b c) → a = b) ∧
    examplePyramid.iatom < 4 ∧ examplePyramid.pos examplePyramid.iatom 1 = 0 ∧
    (∀ i j, i < j → j < 3 → entryOf hout.harms i = entryOf hout.harms j →
      ¬ ∀ r < 12, brought fourTurn thirdTurn (columnEntry hout.lx i) r = columnEntry hout.lx i r) ∧
    (∀ i j, i < j → j < 3 → entryOf hout.harms i = entryOf hout.harms j →
      columnEntry hout.lx i (3 * examplePyramid.iatom) ≠ 0 ∧ columnEntry hout.lx j (3 * examplePyramid.iatom) = 0) ∧
    (∀ k < 3, (∀ j < 3, j ≠ k → entryOf hout.harms j ≠ entryOf hout.harms k) →
      ∀ r < 12, brought fourFlip (flipAxes 1) (columnEntry hout.lx k) r = columnEntry hout.lx k r) ∧
    nonDeg out.resonances.modes = [2] ∧ degPairs out.resonances.modes = [(0, 1)] ∧
    let w := entryOf hout.harms
    let φ := cubicField 12 examplePyramid.axes f3x w out.lx
    let ψ := quarticField 12 examplePyramid.axes f4x w out.lx
    let ζ := zetaField 4 out.lxm
    VibEnergy w φ ψ ζ examplePyramid.rotcon (fun _ : Fin 3 => 0) G0 G1 G2 ∧
    ∀ c < 3, VibEnergy w φ ψ ζ examplePyramid.rotcon (fun j : Fin 3 => if (j : Nat) = c then 1 else 0)
      (E c).1 (E c).2.1 (E c).2.2 := by
  have hp : ∀ i < 12, id i < 12 := fun i hi => hi
  have hct : (3 / 5 : ℝ) ^ 2 + (4 / 5) ^ 2 = 1 := by norm_num
  obtain ⟨out, hout, h, hh, el, -, har, -, hcol⟩ := core_facts (n := 12) (p := id) (c := 3 / 5) (t := 4 / 5) hp (fun _ => rfl) hct (by omega) examplePyramid rfl rfl rfl rfl (.inl rfl) (by decide) (by decide) (by decide) rfl (.inr rfl)
    rfl rfl (by norm_num) (topCubic 10 20 30) (topQuartic 5 7)
  have hev := turnedOracles_exact hp (fun _ => rfl) hct (by omega)
  have el' : out.lx = hout.lx := (c57_same _ _ _ _ _ hout out hh h).2.2.1
  have har' : ∀ i < 3, entryOf hout.harms i = coreLevels i := har
  have w0 : entryOf hout.harms 0 = 900 := by rw [har' 0 (by omega)]; norm_num [coreLevels]
  have w1 : entryOf hout.harms 1 = 900 := by rw [har' 1 (by omega)]; norm_num [coreLevels]
  have w2 : entryOf hout.harms 2 = 800 := by rw [har' 2 (by omega)]; norm_num [coreLevels]
  obtain ⟨m, F4, hm, hF, hfin⟩ := run_quartic h
  obtain ⟨m', hm', -, -, -, hfr⟩ := harmonic_facts hh
  obtain rfl : m = m' := Option.some.inj (hm.symm.trans hm')
  obtain ⟨r, x, hf, zc, v, v', hr, hx, hff, -, hvec, hvec', -, hfu, -, -, -, -, e1, e2, -, e3⟩ := finish_parts hfin
  obtain ⟨t, -, hmd, -, -, -, -, hf1, hf2⟩ := restst_parts hr
  rw [← e3] at hmd hf1 hf2
  have hfr' : ∀ i < 3, vecOf m.freq i = entryOf hout.harms i := hfr
  have v0 : vecOf m.freq 0 = 900 := by rw [hfr' 0 (by omega), w0]
  have v1 : vecOf m.freq 1 = 900 := by rw [hfr' 1 (by omega), w1]
  have v2 : vecOf m.freq 2 = 800 := by rw [hfr' 2 (by omega), w2]
  have hmodes : out.resonances.modes = [.i2 0 1, .i1 2] := by
    rw [hmd]
    show degModes .oblateSymmTop 3 (vecOf m.freq) = _
    have ht : degTriples 3 (vecOf m.freq) = [] := by
      have e : incTriples 3 = [(0, 1, 2)] := rfl
      rw [degTriples, e]
      norm_num [close, DEG_TOL, lt_real, abs_real, lit_real, List.filter_cons, v0, v1, v2]
    have hp : degDoubles 3 (vecOf m.freq) = [(0, 1)] := by
      have e : incPairs 3 = [(0, 1), (0, 2), (1, 2)] := rfl
      rw [degDoubles, e, ht]
      norm_num [close, DEG_TOL, lt_real, abs_real, lit_real, List.filter_cons, inTriples, v0, v1, v2]
    rw [degModes, ht, hp]
    rfl
  have n1 : nonDeg out.resonances.modes = [2] := by rw [hmodes]; rfl
  have n2 : degPairs out.resonances.modes = [(0, 1)] := by rw [hmodes]; rfl
  have he1 : out.resonances.fermi1 = [] := by
    rw [show examplePyramid.rotor = .oblateSymmTop from rfl, fermi1] at hf1
    simp only [part_nonDeg, part_degPairs, n1, n2] at hf1
    rw [← Option.some.inj hf1]
    norm_num [ferm1Test, FTOL1, le_real, abs_real, lit_real, v0, v1, v2]
  have he2 : out.resonances.fermi2 = [] := by
    rw [show examplePyramid.rotor = .oblateSymmTop from rfl, fermi2] at hf2
    simp only [part_nonDeg, part_degPairs, n1, n2] at hf2
    rw [← Option.some.inj hf2]
    rfl
  obtain ⟨hpos, hnr, -⟩ := topLevels _ w0 w1 w2
  have hc : ∀ i < 3, ∃ e : ℝ, (e = 1 ∨ e = -1) ∧ ∀ r < 12, columnEntry hout.lx i r = if r = i then e else 0 := by
    intro i hi
    obtain ⟨e, he, hc⟩ := hcol i hi
    exact ⟨e, he, fun r hr => (hc r hr).2⟩
  have pair : ∀ i j, i < j → j < 3 → entryOf hout.harms i = entryOf hout.harms j → i = 0 ∧ j = 1 := by
    intro i j hij hj he
    rw [har' i (by omega), har' j hj] at he
    exact coreLevels_close hij hj (by rw [he, sub_self, abs_zero]; norm_num)
  have hsep : Separated 3 (if examplePyramid.linear then 1 else 0.1) (entryOf hout.harms) := by
    intro i j hi hj hij
    have key : ∀ a b, a < b → b < 3 → |entryOf hout.harms a - entryOf hout.harms b| < (if examplePyramid.linear then 1 else 0.1) →
        entryOf hout.harms a = entryOf hout.harms b := by
      intro a b hab hb h
      rw [har' a (by omega), har' b hb] at h
      obtain ⟨rfl, rfl⟩ := coreLevels_close hab hb (lt_trans h (by split <;> norm_num))
      rw [w0, w1]
    rcases Nat.lt_trichotomy i j with e | e | e
    · exact key i j e hj hij
    · rw [e]
    · rw [abs_sub_comm] at hij
      exact (key j i e hi hij).symm
  have hlow : ∀ i < 3, 1 / 10 < entryOf hout.harms i := by
    intro i hi
    interval_cases i <;> norm_num [w0, w1, w2]
  have htwo : TwoFold 3 12 (waveUnit ^ 2 * FACT2) (diagHessian coreLevels) examplePyramid.weights (entryOf hout.harms)
      (fun i => applyAxes examplePyramid.axes (columnEntry hout.lx i)) := by
    refine core_twofold hp (fun _ => rfl) (by norm_num) (by norm_num) (by norm_num) har' fun i hi => ?_
    obtain ⟨e, he, hc⟩ := hc i hi
    refine ⟨e, he, fun r hr => ?_⟩
    rw [show examplePyramid.axes = idAxes from rfl, applyAxes_id]
    exact hc r hr
  have hacc : ∀ i j, i < j → j < 3 → entryOf hout.harms i = entryOf hout.harms j →
      ¬ ∀ r < 12, brought fourTurn thirdTurn (columnEntry hout.lx i) r = columnEntry hout.lx i r := by
    intro i j hij hj he hall
    obtain ⟨rfl, rfl⟩ := pair i j hij hj he
    obtain ⟨e, he, hc⟩ := hc 0 (by omega)
    have := hall 0 (by omega)
    rw [carried_zero rfl _ _ _ (by omega), hc 0 (by omega), hc 1 (by omega), hc 2 (by omega)] at this
    simp [thirdTurn] at this
    rcases he with rfl | rfl <;> norm_num at this
  have hal : ∀ i j, i < j → j < 3 → entryOf hout.harms i = entryOf hout.harms j →
      columnEntry hout.lx i (3 * examplePyramid.iatom) ≠ 0 ∧ columnEntry hout.lx j (3 * examplePyramid.iatom) = 0 := by
    intro i j hij hj he
    obtain ⟨rfl, rfl⟩ := pair i j hij hj he
    obtain ⟨e, he, hc0⟩ := hc 0 (by omega)
    obtain ⟨_, _, hc1⟩ := hc 1 (by omega)
    show columnEntry hout.lx 0 0 ≠ 0 ∧ columnEntry hout.lx 1 0 = 0
    rw [hc0 0 (by omega), hc1 0 (by omega), if_pos rfl, if_neg (by omega)]
    rcases he with rfl | rfl <;> norm_num
  have heven : ∀ k < 3, (∀ j < 3, j ≠ k → entryOf hout.harms j ≠ entryOf hout.harms k) →
      ∀ r < 12, brought fourFlip (flipAxes 1) (columnEntry hout.lx k) r = columnEntry hout.lx k r := by
    intro k hk hne r hr
    obtain rfl : k = 2 := by
      by_contra h2
      interval_cases k
      · exact hne 1 (by omega) (by omega) (by rw [w0, w1])
      · exact hne 0 (by omega) (by omega) (by rw [w0, w1])
      · exact h2 rfl
    obtain ⟨e, he, hc⟩ := hc 2 (by omega)
    by_cases h3 : r < 3
    · rw [carried_zero rfl _ _ _ h3, hc 0 (by omega), hc 1 (by omega), hc 2 (by omega), hc r hr]
      interval_cases r <;> simp [flipAxes]
    · obtain ⟨a, c, rfl, hc3⟩ : ∃ a c, r = 3 * a + c ∧ c < 3 := ⟨r / 3, r % 3, by omega, by omega⟩
      have a1 : 1 ≤ fourFlip a ∧ fourFlip a < 4 := by
        unfold fourFlip
        split_ifs <;> omega
      rw [carried_at _ _ _ _ _ hc3, hc _ (by omega), hc _ (by omega), hc _ (by omega), hc _ hr, if_neg (by omega), if_neg (by omega),
        if_neg (by omega), if_neg (by omega)]
      ring
  have hT : ∃ s p : Nat → ℝ, Threefold 3 [2] [(0, 1)] s p 1 (entryOf hout.harms)
      (cubicField 12 examplePyramid.axes (topCubic 10 20 30) (entryOf hout.harms) out.lx)
      (quarticField 12 examplePyramid.axes (topQuartic 5 7) (entryOf hout.harms) out.lx) (zetaField 4 out.lxm) examplePyramid.rotcon := by
    obtain ⟨s, p, hT, -⟩ := c106_threefold examplePyramid (turnedOracles 12 id (3 / 5) (4 / 5)) (diagHessian coreLevels)
      (topCubic 10 20 30) (topQuartic 5 7) out hout rfl rfl (by decide) (fun _ _ => one_pos) idAxes_orthogonal rfl
      (diagHessian_symm _ _) hev h hh hsep hlow htwo fourTurn fourFlip 1 (.inl rfl) (four_turn _ _ _ _ _) (four_flip _ _ _ _ _)
      fourPos_distinct (by decide) ⟨by simp [examplePyramid, exampleThree, exampleLine, fourPos], fun h => absurd h (by norm_num)⟩ hacc
      (fun i j a b c => .inl (hal i j a b c))
    rw [n1, n2, if_pos rfl] at hT
    exact ⟨s, p, hT⟩
  obtain ⟨s, p, hT⟩ := hT
  obtain ⟨⟨G0, G1, G2, hG⟩, hE⟩ := top_exists hT w0 w1 w2
  generalize hφ : cubicField 12 examplePyramid.axes (topCubic 10 20 30) (entryOf hout.harms) out.lx = φ at *
  generalize hψ : quarticField 12 examplePyramid.axes (topQuartic 5 7) (entryOf hout.harms) out.lx = ψ at *
  generalize hζ : zetaField 4 out.lxm = ζ at *
  have hE' : ∀ c, ∃ E : ℝ × ℝ × ℝ, c < 3 → VibEnergy (entryOf hout.harms) φ ψ ζ examplePyramid.rotcon
      (fun j : Fin 3 => if (j : Nat) = c then 1 else 0) E.1 E.2.1 E.2.2 := by
    intro c
    by_cases hc : c < 3
    · obtain ⟨E0, E1, E2, h⟩ := hE c hc
      exact ⟨⟨E0, E1, E2⟩, fun _ => h⟩
    · exact ⟨0, fun h => absurd h hc⟩
  choose E hE' using hE'
  refine ⟨out, hout, G0, G1, G2, E, rfl, rfl, by decide, idAxes_orthogonal, rfl, diagHessian_symm _ _, topCubic_symm12 _ _ _,
    topQuartic_symm12 _ _, hev, h, hh, ⟨he1, he2⟩, hsep, hlow, hnr, htwo, four_turn _ _ _ _ _, four_flip _ _ _ _ _,
    fourPos_distinct, by decide, by simp [examplePyramid, exampleThree, exampleLine, fourPos], hacc, hal, heven, n1, n2, ?_⟩
  dsimp only
  rw [hφ, hψ, hζ]
  exact ⟨hG, hE'⟩

end Verif
