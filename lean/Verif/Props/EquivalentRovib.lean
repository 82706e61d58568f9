import Verif.Lemmas.EquivalentInertia
import Verif.Props.Equivalent
import Verif.Props.RovibRun

/-!
# C110: the rotational constants of molecules with a threefold axis

The molecule has the symmetry operations `(π, thirdTurn)` and `(ρ, flipAxes e)` of `Verif.Spec.Equivalent`, and turning it as
a whole meets no force. The symmetry of the constants of vibration and rotation, which `c110_run_partial` requires, follows.
-/

namespace Verif

open Finset Osc

variable {ι : Type}

/-- What the symmetry of the molecule says about the modes of a run and their constants. -/
theorem symmetry_facts (sp : SpectroIn ℝ) (o : Oracles ℝ ι) (fc2 : Mat ℝ) (f3x : T3 ℝ) (f4x : T4 ℝ) (out hout : Output ℝ ι)
    (hr : sp.rotor.isSymTop = true) (hn : sp.n3n = 3 * sp.natom) (hv : sp.nvib ≤ sp.n3n)
    (hw : ∀ a < sp.natom, 0 < sp.weights a) (hax : Orthogonal3 sp.axes) (hI : sp.primat 0 = sp.primat 1) (hB : sp.rotcon 0 = sp.rotcon 1)
    (h2 : Symm2 sp.n3n fc2) (h3 : Symm3 sp.n3n f3x) (he : ∀ m, Symm2 sp.n3n m → IsEigen sp.n3n m (o.eigen m))
    (h : run sp o (.quartic fc2 f3x f4x) = some out) (hh : run sp o (.harmonic fc2) = some hout)
    (hd : Separated sp.nvib (if sp.linear then 1 else 0.1) (entryOf hout.harms)) (hp : ∀ i < sp.nvib, 1 / 10 < entryOf hout.harms i)
    (hf : TwoFold sp.nvib sp.n3n (waveUnit ^ 2 * FACT2) fc2 sp.weights (entryOf hout.harms)
      (fun i => applyAxes sp.axes (columnEntry hout.lx i)))
    (π ρ : Nat → Nat) (e : ℝ) (hee : e = 1 ∨ e = -1)
    (hπ : SymmetryOf sp.natom sp.pos sp.weights sp.axes fc2 f3x f4x π thirdTurn)
    (hρ : SymmetryOf sp.natom sp.pos sp.weights sp.axes fc2 f3x f4x ρ (flipAxes e))
    (hdist : ∀ a < sp.natom, ∀ b < sp.natom, (∀ c < 3, sp.pos a c = sp.pos b c) → a = b)
    (hrot : ∀ p q, p < 3 → q < 3 → p ≠ q → ∀ v, form2 sp.n3n fc2 (applyAxes sp.axes (turnedAbout sp.pos p q)) v = 0)
    (hat : sp.iatom < sp.natom) (hon : sp.pos sp.iatom 1 = 0 ∧ (e = -1 → sp.pos sp.iatom 2 = 0))
    (hacc : ∀ i j, i < j → j < sp.nvib → entryOf hout.harms i = entryOf hout.harms j →
      ¬ ∀ r < sp.n3n, brought π thirdTurn (columnEntry hout.lx i) r = columnEntry hout.lx i r)
    (hal : ∀ i j, i < j → j < sp.nvib → entryOf hout.harms i = entryOf hout.harms j →
      columnEntry hout.lx i (3 * sp.iatom) ≠ 0 ∧ columnEntry hout.lx j (3 * sp.iatom) = 0 ∨
      e = -1 ∧ columnEntry hout.lx i (3 * sp.iatom + 2) = 0 ∧ columnEntry hout.lx j (3 * sp.iatom + 2) ≠ 0) :
    (modeNumbers out.resonances.modes).Perm (List.range sp.nvib) ∧
    (VibRot.mk sp.rotcon sp.primat (entryOf hout.harms) (inertiaField sp.natom sp.pos sp.weights out.lxm)
      (zetaField sp.natom out.lxm) (cubicField sp.n3n sp.axes f3x (entryOf hout.harms) out.lx)).Axial out.resonances.modes
        (fun _ => 1) (if e = 1 then 0 else 1) (if e = 1 then 1 else 0) ∧
    (∀ i j, i < sp.nvib → j < sp.nvib → i ≠ j → entryOf hout.harms i = entryOf hout.harms j →
      (.i2 i j ∈ out.resonances.modes ∨ .i2 j i ∈ out.resonances.modes)) ∧
    ∃ s : Nat → ℝ, (∀ i, s i = 1 ∨ s i = -1) ∧ ∀ k k2, .i2 k k2 ∈ out.resonances.modes → k < sp.nvib ∧ k2 < sp.nvib ∧
      (∀ r < 3 * sp.natom, brought π thirdTurn (columnEntry out.lxm k) r =
        -1 / 2 * columnEntry out.lxm k r + s k * (Real.sqrt 3 / 2) * columnEntry out.lxm k2 r) ∧
      ∀ r < 3 * sp.natom, brought π thirdTurn (columnEntry out.lxm k2) r =
        -(s k * (Real.sqrt 3 / 2)) * columnEntry out.lxm k r + -1 / 2 * columnEntry out.lxm k2 r := by
  have hd1 : Separated sp.nvib (if sp.linear then 1 else 0.05) (entryOf hout.harms) := fun i j hi hj hij => by
    refine hd i j hi hj (lt_of_lt_of_le hij ?_)
    split <;> norm_num
  obtain ⟨N1, N2⟩ := c100_normal_modes sp o fc2 hout hr hn hv hw hax h2 he hh hd1
  obtain ⟨P1, -, -⟩ := twofold_pair hf N1 N2
  obtain ⟨-, lx1, lxm1, hlx, q1, q2, q3⟩ := equivalent_facts hr hn hv hw he h hh hd hp P1
  rw [hn] at N1 N2 hf hacc h3 hrot ⊢
  obtain ⟨π', ρ', b1, b2, i1, i2, i3, i4, s, p, hs, hpm, c1, c2, c3, c4⟩ :=
    modes_turn hee hπ hρ hdist hax hat hon N1 N2 hf hacc hal
  rw [← lx1] at c1 c2 c3 N1
  have hex : e = 1 ∧ (if e = 1 then 1 else 0) = 1 ∨ e = -1 ∧ (if e = 1 then 1 else 0) = 0 := by
    rcases hee with rfl | rfl
    · exact .inl ⟨rfl, if_pos rfl⟩
    · exact .inr ⟨rfl, if_neg (by norm_num)⟩
  have pos : ∀ i < sp.nvib, 0 < entryOf hout.harms i := fun i hi => lt_trans (by norm_num) (hp i hi)
  have t1 : ∀ k ∈ nonDeg out.resonances.modes, ∀ r < 3 * sp.natom,
      brought π thirdTurn (columnEntry out.lx k) r = columnEntry out.lx k r := fun k hk => c1 k (q2 k hk).1 (q2 k hk).2
  have tt : ∀ t ∈ degPairs out.resonances.modes, _ := fun t ht =>
    c2 _ _ ((q3 t).1 ht).1 ((q3 t).1 ht).2.1 ((q3 t).1 ht).2.2
  have hT := threefold_of hπ hρ b1 b2 i1 i2 i3 i4 hex pos hlx q1 (fun t _ => hs _) hpm (fun t ht => (tt t ht).1)
    (fun t ht => ((q3 t).1 ht).2.2.symm) hB t1 (fun t ht => (tt t ht).2.1) (fun t ht => (tt t ht).2.2) c3
  refine ⟨(modeNumbers_perm _).trans q1, ?_, fun i j hi hj hij heq => ?_, s, hs, fun k k2 hk => ?_⟩
  · have A := axial_molecule (I := sp.primat) hT hI h3 hπ hρ b1 b2 i1 i2 i3 i4 hex hlx
      (fun k hk => no_turn hax (pos k hk).ne' hw hrot (hlx k hk) (N1 k hk)) t1 (fun t ht => (tt t ht).2.1)
      (fun t ht => (tt t ht).2.2) c3
    have e1 : 1 - (if e = 1 then 1 else 0) = if e = 1 then 0 else 1 := by split <;> rfl
    rw [e1] at A
    exact A
  · rcases Nat.lt_or_gt_of_ne hij with l | l
    · exact .inl (mem_degPairs.1 ((q3 (i, j)).2 ⟨l, hj, heq⟩))
    · exact .inr (mem_degPairs.1 ((q3 (j, i)).2 ⟨l, hi, heq.symm⟩))
  · have ht : (k, k2) ∈ degPairs out.resonances.modes := mem_degPairs.2 hk
    obtain ⟨l1, l2, -⟩ := (q3 (k, k2)).1 ht
    simp only at l1 l2
    have wt : ∀ i < sp.nvib, ∀ r < 3 * sp.natom, brought π thirdTurn (columnEntry out.lxm i) r =
        Real.sqrt (sp.weights (r / 3)) * brought π thirdTurn (columnEntry out.lx i) r := fun i hi r hr =>
      carried_weighted (n := sp.natom) (f := fun a => Real.sqrt (sp.weights a)) hπ.atom _ (fun a ha => by rw [hπ.mass a ha]) (hlx i hi) r hr
    refine ⟨by omega, l2, fun r hr => ?_, fun r hr => ?_⟩
    · rw [wt k (by omega) r hr, hlx k (by omega) r hr, hlx k2 l2 r hr, (tt _ ht).2.1 r hr]; ring
    · rw [wt k2 l2 r hr, hlx k (by omega) r hr, hlx k2 l2 r hr, (tt _ ht).2.2 r hr]; ring

/-- C110, symmetry: if the molecule has a threefold axis and a mirror plane through it or a perpendicular half-turn, which
bring every atom to the place of an atom of the same mass and leave the force constants as they are, if turning the molecule
meets no force and the eigensolver solves the equations of motion, then the derivatives of the inertia tensor, the Coriolis
and the cubic constants of a run have the symmetry that C83 and C110 ask for: the first component of each pair is even with
respect to the plane of the axes 2 and 0 if there is a mirror plane, and that of the axes 2 and 1 otherwise. -/
theorem c110_symmetry (sp : SpectroIn ℝ) (o : Oracles ℝ ι) (fc2 : Mat ℝ) (f3x : T3 ℝ) (f4x : T4 ℝ) (out hout : Output ℝ ι)
    (hr : sp.rotor.isSymTop = true) (hn : sp.n3n = 3 * sp.natom) (hv : sp.nvib ≤ sp.n3n)
    (hw : ∀ a < sp.natom, 0 < sp.weights a) (hax : Orthogonal3 sp.axes) (hI : sp.primat 0 = sp.primat 1) (hB : sp.rotcon 0 = sp.rotcon 1)
    (h2 : Symm2 sp.n3n fc2) (h3 : Symm3 sp.n3n f3x) (he : ∀ m, Symm2 sp.n3n m → IsEigen sp.n3n m (o.eigen m))
    (h : run sp o (.quartic fc2 f3x f4x) = some out) (hh : run sp o (.harmonic fc2) = some hout)
    (hd : Separated sp.nvib (if sp.linear then 1 else 0.1) (entryOf hout.harms)) (hp : ∀ i < sp.nvib, 1 / 10 < entryOf hout.harms i)
    (hf : TwoFold sp.nvib sp.n3n (waveUnit ^ 2 * FACT2) fc2 sp.weights (entryOf hout.harms)
      (fun i => applyAxes sp.axes (columnEntry hout.lx i)))
    (π ρ : Nat → Nat) (e : ℝ) (hee : e = 1 ∨ e = -1)
    (hπ : SymmetryOf sp.natom sp.pos sp.weights sp.axes fc2 f3x f4x π thirdTurn)
    (hρ : SymmetryOf sp.natom sp.pos sp.weights sp.axes fc2 f3x f4x ρ (flipAxes e))
    (hdist : ∀ a < sp.natom, ∀ b < sp.natom, (∀ c < 3, sp.pos a c = sp.pos b c) → a = b)
    (hrot : ∀ p q, p < 3 → q < 3 → p ≠ q → ∀ v, form2 sp.n3n fc2 (applyAxes sp.axes (turnedAbout sp.pos p q)) v = 0)
    (hat : sp.iatom < sp.natom) (hon : sp.pos sp.iatom 1 = 0 ∧ (e = -1 → sp.pos sp.iatom 2 = 0))
    (hacc : ∀ i j, i < j → j < sp.nvib → entryOf hout.harms i = entryOf hout.harms j →
      ¬ ∀ r < sp.n3n, brought π thirdTurn (columnEntry hout.lx i) r = columnEntry hout.lx i r)
    (hal : ∀ i j, i < j → j < sp.nvib → entryOf hout.harms i = entryOf hout.harms j →
      columnEntry hout.lx i (3 * sp.iatom) ≠ 0 ∧ columnEntry hout.lx j (3 * sp.iatom) = 0 ∨
      e = -1 ∧ columnEntry hout.lx i (3 * sp.iatom + 2) = 0 ∧ columnEntry hout.lx j (3 * sp.iatom + 2) ≠ 0) :
    (modeNumbers out.resonances.modes).Perm (List.range sp.nvib) ∧
    (VibRot.mk sp.rotcon sp.primat (entryOf hout.harms) (inertiaField sp.natom sp.pos sp.weights out.lxm)
      (zetaField sp.natom out.lxm) (cubicField sp.n3n sp.axes f3x (entryOf hout.harms) out.lx)).Axial out.resonances.modes
        (fun _ => 1) (if e = 1 then 0 else 1) (if e = 1 then 1 else 0) ∧
    ∀ i j, i < sp.nvib → j < sp.nvib → i ≠ j → entryOf hout.harms i = entryOf hout.harms j →
      .i2 i j ∈ out.resonances.modes ∨ .i2 j i ∈ out.resonances.modes := by
  obtain ⟨a, b, c, -⟩ := symmetry_facts sp o fc2 f3x f4x out hout hr hn hv hw hax hI hB h2 h3 he h hh hd hp hf π ρ e hee hπ hρ hdist
    hrot hat hon hacc hal
  exact ⟨a, b, c⟩

/-- Without a product of inertia with axis 0 the plane does not matter. -/
theorem VibRot.Axial.other {D : VibRot} {modes : List Mode} {s : Nat → ℝ} (h : D.Axial modes s 0 1)
    (hA : ∀ k k2, .i2 k k2 ∈ modes → D.A k 2 0 = 0) : D.Axial modes s 1 0 :=
  ⟨h.inertia, h.anti, h.cubic, h.tensor, h.single, h.singles, fun k k2 hk => by
    obtain ⟨a1, a2, a3, a4, a5, a6, a7, a8, a9, a10, a11⟩ := h.pair k k2 hk
    have z := hA k k2 hk
    have z2 : D.A k2 2 1 = 0 := by
      rw [z] at a11
      exact (pow_eq_zero_iff two_ne_zero).1 (by rw [a11]; norm_num)
    exact ⟨a1, a2, a3, a4, z, a6, a7, a8, z2, a10, by rw [a9, a5]⟩, h.mixed, h.pairs, h.cubics⟩

/-- What `c110_run_partial` requires. -/
theorem molecule_rovib (sp : SpectroIn ℝ) (o : Oracles ℝ ι) (fc2 : Mat ℝ) (f3x : T3 ℝ) (f4x : T4 ℝ) (out hout : Output ℝ ι)
    (hr : sp.rotor = .oblateSymmTop) (hn : sp.n3n = 3 * sp.natom) (hv : sp.nvib ≤ sp.n3n)
    (hw : ∀ a < sp.natom, 0 < sp.weights a) (hax : Orthogonal3 sp.axes) (hI : sp.primat 0 = sp.primat 1) (κ : ℝ)
    (hB : ∀ a < 3, sp.rotcon a = κ / sp.primat a)
    (h2 : Symm2 sp.n3n fc2) (h3 : Symm3 sp.n3n f3x) (he : ∀ m, Symm2 sp.n3n m → IsEigen sp.n3n m (o.eigen m))
    (h : run sp o (.quartic fc2 f3x f4x) = some out) (hh : run sp o (.harmonic fc2) = some hout)
    (hd : Separated sp.nvib (if sp.linear then 1 else 0.1) (entryOf hout.harms)) (hp : ∀ i < sp.nvib, 1 / 10 < entryOf hout.harms i)
    (hf : TwoFold sp.nvib sp.n3n (waveUnit ^ 2 * FACT2) fc2 sp.weights (entryOf hout.harms)
      (fun i => applyAxes sp.axes (columnEntry hout.lx i)))
    (π ρ : Nat → Nat) (e : ℝ) (hee : e = 1 ∨ e = -1)
    (hπ : SymmetryOf sp.natom sp.pos sp.weights sp.axes fc2 f3x f4x π thirdTurn)
    (hρ : SymmetryOf sp.natom sp.pos sp.weights sp.axes fc2 f3x f4x ρ (flipAxes e))
    (hdist : ∀ a < sp.natom, ∀ b < sp.natom, (∀ c < 3, sp.pos a c = sp.pos b c) → a = b)
    (hrot : ∀ p q, p < 3 → q < 3 → p ≠ q → ∀ v, form2 sp.n3n fc2 (applyAxes sp.axes (turnedAbout sp.pos p q)) v = 0)
    (hat : sp.iatom < sp.natom) (hon : sp.pos sp.iatom 1 = 0 ∧ (e = -1 → sp.pos sp.iatom 2 = 0))
    (hacc : ∀ i j, i < j → j < sp.nvib → entryOf hout.harms i = entryOf hout.harms j →
      ¬ ∀ r < sp.n3n, brought π thirdTurn (columnEntry hout.lx i) r = columnEntry hout.lx i r)
    (hal : ∀ i j, i < j → j < sp.nvib → entryOf hout.harms i = entryOf hout.harms j →
      columnEntry hout.lx i (3 * sp.iatom) ≠ 0 ∧ columnEntry hout.lx j (3 * sp.iatom) = 0 ∨
      e = -1 ∧ columnEntry hout.lx i (3 * sp.iatom + 2) = 0 ∧ columnEntry hout.lx j (3 * sp.iatom + 2) ≠ 0)
    (hpl : e = 1 → ∀ i j, i < j → j < sp.nvib → entryOf hout.harms i = entryOf hout.harms j →
      inertiaField sp.natom sp.pos sp.weights hout.lxm i 2 0 = 0) :
    (modeNumbers out.resonances.modes).Perm (List.range sp.nvib) ∧
    (VibRot.mk sp.rotcon sp.primat (entryOf hout.harms) (inertiaField sp.natom sp.pos sp.weights out.lxm)
      (zetaField sp.natom out.lxm) (cubicField sp.n3n sp.axes f3x (entryOf hout.harms) out.lx)).Axial out.resonances.modes
        (fun _ => 1) 1 0 ∧
    ∀ i j, i < sp.nvib → j < sp.nvib → i ≠ j → entryOf hout.harms i = entryOf hout.harms j →
      .i2 i j ∈ out.resonances.modes ∨ .i2 j i ∈ out.resonances.modes := by
  have hr' : sp.rotor.isSymTop = true := by rw [hr]; rfl
  obtain ⟨a, b, c⟩ := c110_symmetry sp o fc2 f3x f4x out hout hr' hn hv hw hax hI
    (by rw [hB 0 (by norm_num), hB 1 (by norm_num), hI]) h2 h3 he h hh hd hp hf π ρ e hee hπ hρ hdist hrot hat hon hacc hal
  refine ⟨a, ?_, c⟩
  rcases hee with rfl | rfl
  · rw [if_pos rfl, if_pos rfl] at b
    refine b.other fun k k2 hk => ?_
    have hd1 : Separated sp.nvib (if sp.linear then 1 else 0.05) (entryOf hout.harms) := fun i j hi hj hij => by
      refine hd i j hi hj (lt_of_lt_of_le hij ?_)
      split <;> norm_num
    obtain ⟨N1, N2⟩ := c100_normal_modes sp o fc2 hout hr' hn hv hw hax h2 he hh hd1
    obtain ⟨-, -, lxm1, -, -, -, q3⟩ := equivalent_facts hr' hn hv hw he h hh hd hp (twofold_pair hf N1 N2).1
    obtain ⟨l1, l2, l3⟩ := (q3 (k, k2)).1 (mem_degPairs.2 hk)
    show inertiaField sp.natom sp.pos sp.weights out.lxm k 2 0 = 0
    rw [lxm1]
    exact hpl rfl k k2 l1 l2 l3
  · rw [if_neg (by norm_num), if_neg (by norm_num)] at b
    exact b

/-- C110, oblate molecules with a threefold axis: let the molecule have a threefold axis and a mirror plane through it or a
perpendicular half-turn, which bring every atom to the place of an atom of the same mass and leave the force constants as they
are; let turning it meet no force. If there is a mirror plane, let the first component of each pair leave the product of
inertia with the axes 2 and 0 as it is, as in a planar molecule. Then any two states `r`, `r₀` which the run reports differ in
their rotational constants as perturbation theory of second order for Watson's Hamiltonian of the molecule says, as in
`c110_run_partial`.
Missing: prolate tops (see `c43_prolate_violated`), pairs which change that product (see `c83_plane_violated`), and axes of
order four (see `c83_fourfold_violated`). -/
theorem c110_molecule_partial (sp : SpectroIn ℝ) (o : Oracles ℝ ι) (fc2 : Mat ℝ) (f3x : T3 ℝ) (f4x : T4 ℝ) (out hout : Output ℝ ι)
    (hr : sp.rotor = .oblateSymmTop) (hn : sp.n3n = 3 * sp.natom) (hv : sp.nvib ≤ sp.n3n) (h0 : 0 < sp.nvib)
    (hw : ∀ a < sp.natom, 0 < sp.weights a) (hax : Orthogonal3 sp.axes) (hI : sp.primat 0 = sp.primat 1) (κ : ℝ) (hκ : 0 < κ)
    (hB : ∀ a < 3, sp.rotcon a = κ / sp.primat a)
    (h2 : Symm2 sp.n3n fc2) (h3 : Symm3 sp.n3n f3x) (h4 : Symm4 sp.n3n f4x) (he : ∀ m, Symm2 sp.n3n m → IsEigen sp.n3n m (o.eigen m))
    (h : run sp o (.quartic fc2 f3x f4x) = some out) (hh : run sp o (.harmonic fc2) = some hout)
    (hc : out.resonances.coriolis = [])
    (hd : Separated sp.nvib (if sp.linear then 1 else 0.1) (entryOf hout.harms)) (hp : ∀ i < sp.nvib, 1 / 10 < entryOf hout.harms i) (hnr : NoResonance sp.nvib (entryOf hout.harms))
    (hf : TwoFold sp.nvib sp.n3n (waveUnit ^ 2 * FACT2) fc2 sp.weights (entryOf hout.harms)
      (fun i => applyAxes sp.axes (columnEntry hout.lx i)))
    (π ρ : Nat → Nat) (e : ℝ) (hee : e = 1 ∨ e = -1)
    (hπ : SymmetryOf sp.natom sp.pos sp.weights sp.axes fc2 f3x f4x π thirdTurn)
    (hρ : SymmetryOf sp.natom sp.pos sp.weights sp.axes fc2 f3x f4x ρ (flipAxes e))
    (hdist : ∀ a < sp.natom, ∀ b < sp.natom, (∀ c < 3, sp.pos a c = sp.pos b c) → a = b)
    (hrot : ∀ p q, p < 3 → q < 3 → p ≠ q → ∀ v, form2 sp.n3n fc2 (applyAxes sp.axes (turnedAbout sp.pos p q)) v = 0)
    (hat : sp.iatom < sp.natom) (hon : sp.pos sp.iatom 1 = 0 ∧ (e = -1 → sp.pos sp.iatom 2 = 0))
    (hacc : ∀ i j, i < j → j < sp.nvib → entryOf hout.harms i = entryOf hout.harms j →
      ¬ ∀ r < sp.n3n, brought π thirdTurn (columnEntry hout.lx i) r = columnEntry hout.lx i r)
    (hal : ∀ i j, i < j → j < sp.nvib → entryOf hout.harms i = entryOf hout.harms j →
      columnEntry hout.lx i (3 * sp.iatom) ≠ 0 ∧ columnEntry hout.lx j (3 * sp.iatom) = 0 ∨
      e = -1 ∧ columnEntry hout.lx i (3 * sp.iatom + 2) = 0 ∧ columnEntry hout.lx j (3 * sp.iatom + 2) ≠ 0)
    (hpl : e = 1 → ∀ i j, i < j → j < sp.nvib → entryOf hout.harms i = entryOf hout.harms j →
      inertiaField sp.natom sp.pos sp.weights hout.lxm i 2 0 = 0) :
    let modes := out.resonances.modes
    let w := entryOf hout.harms
    let φ := cubicField sp.n3n sp.axes f3x w out.lx
    let ψ := quarticField sp.n3n sp.axes f4x w out.lx
    let ζ := zetaField sp.natom out.lxm
    let A := inertiaField sp.natom sp.pos sp.weights out.lxm
    let level := fun (n : Nat → Nat) (J : Nat → ℝ) (e : ℝ) => ∃ E0 E1 E2, e = E0 + E1 + E2 ∧
      RotEnergy κ sp.primat A w φ ψ ζ J (fun i : Fin sp.nvib => n i) E0 E1 E2
    ∀ r0 ∈ out.rots, ∀ r ∈ out.rots, r.a - r0.a = r.b - r0.b ∧
      ∀ n n' m m', Components modes r.state n n' → Components modes r0.state m m' → ∀ x, (x = 1 ∨ x = 2) →
      (∀ k k2, .i2 k k2 ∈ modes → ζ k k2 x = 0 ∨ (n k = 0 ∧ n k2 = 0 ∧ m k = 0 ∧ m k2 = 0)) → ∀ j E E' G G' F F' H H',
      level n (about x j) E → level n' (about x j) E' → level n (about x 0) G → level n' (about x 0) G' →
      level m (about x j) F → level m' (about x j) F' → level m (about x 0) H → level m' (about x 0) H' →
      ((E - G) + (E' - G')) / 2 - ((F - H) + (F' - H')) / 2 =
        (axisConst r x - axisConst r0 x + ∑ i ∈ range sp.nvib, roundedPart sp.nvib κ sp.primat w A φ i x *
          (((n i : ℝ) + n' i) / 2 - ((m i : ℝ) + m' i) / 2)) * j ^ 2 := by
  intro modes w φ ψ ζ A level
  obtain ⟨a, b, c⟩ := molecule_rovib sp o fc2 f3x f4x out hout hr hn hv hw hax hI κ hB h2 h3 he h hh hd hp hf π ρ e
    hee hπ hρ hdist hrot hat hon hacc hal hpl
  exact c110_run_partial sp o fc2 f3x f4x out hout hr hn hv h0 h3 h4 h hh κ hκ hB hc (fun i hi => lt_trans (by norm_num) (hp i hi))
    hnr a b c

/-- C110, oblate molecules with a threefold axis, degenerate modes and the unique axis: with the hypotheses of
`c110_molecule_partial`, let `r` be reported for one quantum in the degenerate mode `(k, k2)` and `r₀` for a state whose
components the angular momentum does not couple. Then the conclusion of `c110_run_rotating_partial` holds.
Missing: as in `c110_molecule_partial`. -/
theorem c110_molecule_rotating_partial (sp : SpectroIn ℝ) (o : Oracles ℝ ι) (fc2 : Mat ℝ) (f3x : T3 ℝ) (f4x : T4 ℝ) (out hout : Output ℝ ι)
    (hr : sp.rotor = .oblateSymmTop) (hn : sp.n3n = 3 * sp.natom) (hv : sp.nvib ≤ sp.n3n) (h0 : 0 < sp.nvib)
    (hw : ∀ a < sp.natom, 0 < sp.weights a) (hax : Orthogonal3 sp.axes) (hI : sp.primat 0 = sp.primat 1) (κ : ℝ) (hκ : 0 < κ)
    (hB : ∀ a < 3, sp.rotcon a = κ / sp.primat a)
    (h2 : Symm2 sp.n3n fc2) (h3 : Symm3 sp.n3n f3x) (h4 : Symm4 sp.n3n f4x) (he : ∀ m, Symm2 sp.n3n m → IsEigen sp.n3n m (o.eigen m))
    (h : run sp o (.quartic fc2 f3x f4x) = some out) (hh : run sp o (.harmonic fc2) = some hout)
    (hc : out.resonances.coriolis = [])
    (hd : Separated sp.nvib (if sp.linear then 1 else 0.1) (entryOf hout.harms)) (hp : ∀ i < sp.nvib, 1 / 10 < entryOf hout.harms i) (hnr : NoResonance sp.nvib (entryOf hout.harms))
    (hf : TwoFold sp.nvib sp.n3n (waveUnit ^ 2 * FACT2) fc2 sp.weights (entryOf hout.harms)
      (fun i => applyAxes sp.axes (columnEntry hout.lx i)))
    (π ρ : Nat → Nat) (e : ℝ) (hee : e = 1 ∨ e = -1)
    (hπ : SymmetryOf sp.natom sp.pos sp.weights sp.axes fc2 f3x f4x π thirdTurn)
    (hρ : SymmetryOf sp.natom sp.pos sp.weights sp.axes fc2 f3x f4x ρ (flipAxes e))
    (hdist : ∀ a < sp.natom, ∀ b < sp.natom, (∀ c < 3, sp.pos a c = sp.pos b c) → a = b)
    (hrot : ∀ p q, p < 3 → q < 3 → p ≠ q → ∀ v, form2 sp.n3n fc2 (applyAxes sp.axes (turnedAbout sp.pos p q)) v = 0)
    (hat : sp.iatom < sp.natom) (hon : sp.pos sp.iatom 1 = 0 ∧ (e = -1 → sp.pos sp.iatom 2 = 0))
    (hacc : ∀ i j, i < j → j < sp.nvib → entryOf hout.harms i = entryOf hout.harms j →
      ¬ ∀ r < sp.n3n, brought π thirdTurn (columnEntry hout.lx i) r = columnEntry hout.lx i r)
    (hal : ∀ i j, i < j → j < sp.nvib → entryOf hout.harms i = entryOf hout.harms j →
      columnEntry hout.lx i (3 * sp.iatom) ≠ 0 ∧ columnEntry hout.lx j (3 * sp.iatom) = 0 ∨
      e = -1 ∧ columnEntry hout.lx i (3 * sp.iatom + 2) = 0 ∧ columnEntry hout.lx j (3 * sp.iatom + 2) ≠ 0)
    (hpl : e = 1 → ∀ i j, i < j → j < sp.nvib → entryOf hout.harms i = entryOf hout.harms j →
      inertiaField sp.natom sp.pos sp.weights hout.lxm i 2 0 = 0) :
    let modes := out.resonances.modes
    let w := entryOf hout.harms
    let φ := cubicField sp.n3n sp.axes f3x w out.lx
    let ψ := quarticField sp.n3n sp.axes f4x w out.lx
    let ζ := zetaField sp.natom out.lxm
    let A := inertiaField sp.natom sp.pos sp.weights out.lxm
    let level := fun (n : Nat → Nat) (J : Nat → ℝ) (e : ℝ) => ∃ E0 E1 E2, e = E0 + E1 + E2 ∧
      RotEnergy κ sp.primat A w φ ψ ζ J (fun i : Fin sp.nvib => n i) E0 E1 E2
    ∀ r0 ∈ out.rots, ∀ r ∈ out.rots, ∀ q (h : q < (degPairs modes).length),
      r.state = .i2st ((List.replicate sp.nvib (0, 0)).set q (1, 1)) → let k := (degPairs modes)[q].1; let k2 := (degPairs modes)[q].2
      ∀ m m', Components modes r0.state m m' → ∀ x, (x = 1 ∨ x = 2) →
      (∀ k k2, .i2 k k2 ∈ modes → ζ k k2 x = 0 ∨ (m k = 0 ∧ m k2 = 0)) →
      ∀ σ : ℝ, σ ^ 2 = 1 → ∀ j E0 E1 E2 G0 G1 G2 F F' H H',
      RotPairEnergy κ sp.primat A w φ ψ ζ (about x j) (fun i : Fin sp.nvib => if i = k then 1 else 0)
        (fun i : Fin sp.nvib => if i = k2 then 1 else 0) σ E0 E1 E2 →
      RotPairEnergy κ sp.primat A w φ ψ ζ (about x 0) (fun i : Fin sp.nvib => if i = k then 1 else 0)
        (fun i : Fin sp.nvib => if i = k2 then 1 else 0) σ G0 G1 G2 →
      level m (about x j) F → level m' (about x j) F' → level m (about x 0) H → level m' (about x 0) H' →
      E0 = G0 ∧ G1 = 0 ∧ E1 = -(σ * (2 * sp.rotcon x * ζ k k2 x)) * j ∧
      (E2 - G2) - ((F - H) + (F' - H')) / 2 =
        (axisConst r x - axisConst r0 x +
          ((roundedPart sp.nvib κ sp.primat w A φ k x + roundedPart sp.nvib κ sp.primat w A φ k2 x) / 2 -
            ∑ i ∈ range sp.nvib, roundedPart sp.nvib κ sp.primat w A φ i x * (((m i : ℝ) + m' i) / 2))) * j ^ 2 := by
  intro modes w φ ψ ζ A level
  obtain ⟨a, b, c⟩ := molecule_rovib sp o fc2 f3x f4x out hout hr hn hv hw hax hI κ hB h2 h3 he h hh hd hp hf π ρ e
    hee hπ hρ hdist hrot hat hon hacc hal hpl
  exact c110_run_rotating_partial sp o fc2 f3x f4x out hout hr hn hv h0 h3 h4 h hh κ hκ hB hc
    (fun i hi => lt_trans (by norm_num) (hp i hi)) hnr a b c

/-- C110, linear molecules: let the atoms lie on axis 2, let the force constants stay as they are if the displacements are
turned by a third of a turn about it or reflected in a plane through it, and let turning the molecule meet no force. If the run
reports no Coriolis resonance, the constant printed for a state is the coefficient of `j²` in the energy which the angular
momentum `j` perpendicular to the axis adds to the state, by perturbation theory of second order for Watson's Hamiltonian of
the linear molecule, as in `c110_run_linear`. -/
theorem c110_molecule_linear (sp : SpectroIn ℝ) (o : Oracles ℝ ι) (fc2 : Mat ℝ) (f3x : T3 ℝ) (f4x : T4 ℝ) (out hout : Output ℝ ι)
    (hr : sp.rotor = .linear) (hn : sp.n3n = 3 * sp.natom) (hv : sp.nvib ≤ sp.n3n) (h0 : 0 < sp.nvib)
    (hw : ∀ a < sp.natom, 0 < sp.weights a) (hax : Orthogonal3 sp.axes) (hI : sp.primat 0 = sp.primat 1) (κ : ℝ) (hκ : 0 < κ)
    (hB : sp.rotcon 1 = κ / sp.primat 1) (hB01 : sp.rotcon 0 = sp.rotcon 1)
    (h2 : Symm2 sp.n3n fc2) (h3 : Symm3 sp.n3n f3x) (h4 : Symm4 sp.n3n f4x) (he : ∀ m, Symm2 sp.n3n m → IsEigen sp.n3n m (o.eigen m))
    (h : run sp o (.quartic fc2 f3x f4x) = some out) (hh : run sp o (.harmonic fc2) = some hout)
    (hc : out.resonances.coriolis = [])
    (hd : Separated sp.nvib (if sp.linear then 1 else 0.1) (entryOf hout.harms)) (hp : ∀ i < sp.nvib, 1 / 10 < entryOf hout.harms i) (hnr : NoResonance sp.nvib (entryOf hout.harms))
    (hf : TwoFold sp.nvib sp.n3n (waveUnit ^ 2 * FACT2) fc2 sp.weights (entryOf hout.harms)
      (fun i => applyAxes sp.axes (columnEntry hout.lx i)))
    (hline : ∀ a < sp.natom, sp.pos a 0 = 0 ∧ sp.pos a 1 = 0)
    (hπ : SymmetryOf sp.natom sp.pos sp.weights sp.axes fc2 f3x f4x id thirdTurn)
    (hρ : SymmetryOf sp.natom sp.pos sp.weights sp.axes fc2 f3x f4x id (flipAxes 1))
    (hdist : ∀ a < sp.natom, ∀ b < sp.natom, (∀ c < 3, sp.pos a c = sp.pos b c) → a = b)
    (hrot : ∀ p q, p < 3 → q < 3 → p ≠ q → ∀ v, form2 sp.n3n fc2 (applyAxes sp.axes (turnedAbout sp.pos p q)) v = 0)
    (hat : sp.iatom < sp.natom)
    (hacc : ∀ i j, i < j → j < sp.nvib → entryOf hout.harms i = entryOf hout.harms j →
      ¬ ∀ r < sp.n3n, brought id thirdTurn (columnEntry hout.lx i) r = columnEntry hout.lx i r)
    (hal : ∀ i j, i < j → j < sp.nvib → entryOf hout.harms i = entryOf hout.harms j →
      columnEntry hout.lx i (3 * sp.iatom) ≠ 0 ∧ columnEntry hout.lx j (3 * sp.iatom) = 0) :
    let modes := out.resonances.modes
    let w := entryOf hout.harms
    let φ := cubicField sp.n3n sp.axes f3x w out.lx
    let ψ := quarticField sp.n3n sp.axes f4x w out.lx
    let ζ := zetaField sp.natom out.lxm
    let A := inertiaField sp.natom sp.pos sp.weights out.lxm
    let level := fun (n : Nat → Nat) (j : ℝ) (e : ℝ) => ∃ E0 E1 E2, e = E0 + E1 + E2 ∧
      LinearRotEnergy κ sp.primat A w φ ψ ζ (about 1 j) (fun i : Fin sp.nvib => n i) E0 E1 E2
    ∀ r ∈ out.rots, ∀ n n', Components modes r.state n n' → ∀ j E E' G G',
      level n j E → level n' j E' → level n 0 G → level n' 0 G' →
      ((E - G) + (E' - G')) / 2 =
        (printedB out.rotEquil r + ∑ i ∈ range sp.nvib, roundedPart sp.nvib κ sp.primat w A φ i 1 *
          (((n i : ℝ) + n' i) / 2 + 1 / 2)) * j ^ 2 +
        8 * κ ^ 3 / 38333.84078 * (1 / 4 * tauSpec sp.nvib w sp.primat A 1 1 1 1) * j ^ 4 := by
  intro modes w φ ψ ζ A level
  have hr' : sp.rotor.isSymTop = true := by rw [hr]; rfl
  obtain ⟨a, b, c, s, hs, t⟩ := symmetry_facts sp o fc2 f3x f4x out hout hr' hn hv hw hax hI hB01 h2 h3 he h hh hd hp hf id id 1
    (.inl rfl) hπ hρ hdist hrot hat ⟨(hline _ hat).2, fun q => absurd q (by norm_num)⟩ hacc (fun i j p q r => .inl (hal i j p q r))
  rw [if_pos rfl, if_pos rfl] at b
  have off : ∀ k, A k 2 0 = 0 := fun k => by
    show inertiaField sp.natom sp.pos sp.weights out.lxm k 2 0 = 0
    unfold inertiaField
    rw [if_neg (by norm_num), sum_eq_zero fun a ha => by rw [show min 2 0 = 0 from rfl, (hline a (mem_range.1 ha)).1]; ring]
    ring
  have same : ∀ k, A k 0 0 = A k 1 1 := fun k => by
    show inertiaField sp.natom sp.pos sp.weights out.lxm k 0 0 = inertiaField sp.natom sp.pos sp.weights out.lxm k 1 1
    unfold inertiaField
    rw [if_pos rfl, if_pos rfl]
    congr 1
    refine sum_congr rfl fun a ha => ?_
    congr 1
    rw [show (range 3).erase 0 = {1, 2} from rfl, show (range 3).erase 1 = {0, 2} from rfl, sum_pair (by norm_num),
      sum_pair (by norm_num), (hline a (mem_range.1 ha)).1, (hline a (mem_range.1 ha)).2]
    ring
  -- the pairs do not move the atoms along the axis
  have s3 : Real.sqrt 3 * Real.sqrt 3 = 3 := Real.mul_self_sqrt (by norm_num)
  have flat : ∀ k k2, .i2 k k2 ∈ modes → ∀ a < sp.natom, columnEntry out.lxm k (3 * a + 2) = 0 ∧ columnEntry out.lxm k2 (3 * a + 2) = 0 := by
    intro k k2 hk a ha
    obtain ⟨-, -, u, v⟩ := t k k2 hk
    have u := u (3 * a + 2) (by omega)
    have v := v (3 * a + 2) (by omega)
    rw [carried_at _ _ _ _ _ (by norm_num)] at u v
    simp [thirdTurn] at u v
    have gs := g_sq (hs k)
    generalize columnEntry out.lxm k (3 * a + 2) = x at *
    generalize columnEntry out.lxm k2 (3 * a + 2) = y at *
    constructor
    · linear_combination (1 / 2) * u + (s k * Real.sqrt 3 / 6) * v - (x / 12) * (s k * s k) * s3 - (x / 4) * gs
    · linear_combination (1 / 2) * v - (s k * Real.sqrt 3 / 6) * u - (y / 12) * (s k * s k) * s3 - (y / 4) * gs
  refine c110_run_linear sp o fc2 f3x f4x out hout hr hn hv h0 h3 h4 h hh κ hκ hB hc (fun i hi => lt_trans (by norm_num) (hp i hi)) hnr
    a (b.other fun k k2 _ => off k) (fun k k2 hk => ?_) (fun k k2 j j2 hk hj => ?_) c
  · have e1 := (b.pair k k2 hk).2.2.2.1
    have e2 := same k
    have e1 : A k 0 0 = -A k 1 1 := e1
    linarith
  · have f := flat k k2 hk
    have g := flat j j2 hj
    have z : ∀ i x, x < 2 → (∀ a < sp.natom, columnEntry out.lxm i (3 * a + 2) = 0) → zetaField sp.natom out.lxm k i x = 0 := by
      intro i x hx hi
      unfold zetaField angularForm
      refine sum_eq_zero fun a ha => ?_
      have ha := mem_range.1 ha
      interval_cases x
      · show _ * columnEntry out.lxm i (3 * a + 2) - columnEntry out.lxm k (3 * a + 2) * _ = 0
        rw [hi a ha, (f a ha).1]; ring
      · show columnEntry out.lxm k (3 * a + 2) * _ - _ * columnEntry out.lxm i (3 * a + 2) = 0
        rw [hi a ha, (f a ha).1]; ring
    exact ⟨z j 0 (by norm_num) fun a ha => (g a ha).1, z j 1 (by norm_num) fun a ha => (g a ha).1,
      z j2 1 (by norm_num) fun a ha => (g a ha).2⟩

/-! ### An example -/

theorem rnd_form2 (u v : Nat → ℝ) : form2 9 rndHess u v = 900 ^ 2 / (waveUnit ^ 2 * (FACT2 : ℝ)) * (u 0 * v 0 + u 1 * v 1) +
    800 ^ 2 / (waveUnit ^ 2 * (FACT2 : ℝ)) * u 5 * v 5 := by
  simp [form2, sum_range_succ, diagHessian, rndHess, coreLevels, rndPerm]
  ring

theorem rnd_form3 (u v t : Nat → ℝ) : form3 9 rndOne3 u v t = u 5 * v 5 * t 5 := by
  unfold form3
  rw [sum_eq_single 5 (fun i _ hi => sum_eq_zero fun j _ => sum_eq_zero fun k _ => by simp [rndOne3, hi]) (by simp),
    sum_eq_single 5 (fun j _ hj => sum_eq_zero fun k _ => by simp [rndOne3, hj]) (by simp),
    sum_eq_single 5 (fun k _ hk => by simp [rndOne3, hk]) (by simp)]
  simp [rndOne3]

theorem rnd_form4 (u v t r : Nat → ℝ) : form4 9 rndOne4 u v t r = u 5 * v 5 * t 5 * r 5 := by
  unfold form4
  rw [sum_eq_single 5 (fun i _ hi => sum_eq_zero fun j _ => sum_eq_zero fun k _ => sum_eq_zero fun l _ => by simp [rndOne4, hi])
    (by simp), sum_eq_single 5 (fun j _ hj => sum_eq_zero fun k _ => sum_eq_zero fun l _ => by simp [rndOne4, hj]) (by simp),
    sum_eq_single 5 (fun k _ hk => sum_eq_zero fun l _ => by simp [rndOne4, hk]) (by simp),
    sum_eq_single 5 (fun l _ hl => by simp [rndOne4, hl]) (by simp)]
  simp [rndOne4]

theorem rnd_symmetry (lin : Bool) {M : Nat → Nat → ℝ} (hz : M 2 0 = 0 ∧ M 2 1 = 0 ∧ M 2 2 = 1 ∧ M 0 2 = 0 ∧ M 1 2 = 0)
    (ho : M 0 0 ^ 2 + M 1 0 ^ 2 = 1 ∧ M 0 1 ^ 2 + M 1 1 ^ 2 = 1 ∧ M 0 0 * M 0 1 + M 1 0 * M 1 1 = 0) :
    SymmetryOf 3 (rndMol lin).pos (rndMol lin).weights (rndMol lin).axes rndHess rndOne3 rndOne4 id M := by
  obtain ⟨z1, z2, z3, z4, z5⟩ := hz
  obtain ⟨o1, o2, o3⟩ := ho
  have at0 : ∀ u, brought id M u 0 = M 0 0 * u 0 + M 0 1 * u 1 := fun u => by
    rw [carried_zero rfl _ _ _ (by norm_num), z4]; ring
  have at1 : ∀ u, brought id M u 1 = M 1 0 * u 0 + M 1 1 * u 1 := fun u => by
    rw [carried_zero rfl _ _ _ (by norm_num), z5]; ring
  have at5 : ∀ u, brought id M u 5 = u 5 := fun u => by
    have := carried_at id M u 1 2 (by norm_num)
    rw [z1, z2, z3] at this
    simpa using this
  have dot : ∀ u v : Nat → ℝ, brought id M u 0 * brought id M v 0 + brought id M u 1 * brought id M v 1 = u 0 * v 0 + u 1 * v 1 := by
    intro u v
    rw [at0, at1, at0, at1]
    linear_combination u 0 * v 0 * o1 + u 1 * v 1 * o2 + (u 0 * v 1 + u 1 * v 0) * o3
  have hax : (rndMol lin).axes = idAxes := rfl
  rw [hax]
  refine ⟨fun _ h => h, fun a _ c hc => ?_, fun _ _ => rfl, fun u v => ?_, fun u v t => ?_, fun u v t r => ?_⟩
  · have pos : ∀ a x, (rndMol lin).pos a x = if x = 2 then (a : ℝ) else 0 := fun a x => rfl
    rw [sum_range_succ, sum_range_succ, sum_range_succ, sum_range_zero]
    simp only [pos]
    interval_cases c <;> simp [z3, z4, z5]
  · simp only [applyAxes_id]
    rw [show 3 * 3 = 9 from rfl, rnd_form2, rnd_form2, dot, at5, at5]
  · simp only [applyAxes_id]
    rw [show 3 * 3 = 9 from rfl, rnd_form3, rnd_form3, at5, at5, at5]
  · simp only [applyAxes_id]
    rw [show 3 * 3 = 9 from rfl, rnd_form4, rnd_form4, at5, at5, at5, at5]

/-- What the theorems require of the molecule and its modes is met by the run of the example in `Verif.Props.RovibRun`. -/
theorem rnd_molecule (lin : Bool) {hout : Output ℝ Nat} (hw : ∀ i < 3, entryOf hout.harms i = rndFreq i)
    (hcol : ∀ i < 3, ∃ e : ℝ, (e = 1 ∨ e = -1) ∧ ∀ r < 9, columnEntry hout.lx i r = if r = rndPerm i then e else 0) :
    (∀ a < 3, 0 < (rndMol lin).weights a) ∧ Orthogonal3 (rndMol lin).axes ∧ (rndMol lin).primat 0 = (rndMol lin).primat 1 ∧
    (rndMol lin).rotcon 0 = (rndMol lin).rotcon 1 ∧ Symm2 9 rndHess ∧
    (∀ m, Symm2 9 m → IsEigen 9 m ((turnedOracles 9 rndPerm (3 / 5) (4 / 5)).eigen m)) ∧
    Separated 3 (if (rndMol lin).linear then 1 else 0.1) (entryOf hout.harms) ∧ (∀ i < 3, 1 / 10 < entryOf hout.harms i) ∧
    TwoFold 3 9 (waveUnit ^ 2 * FACT2) rndHess (rndMol lin).weights (entryOf hout.harms)
      (fun i => applyAxes (rndMol lin).axes (columnEntry hout.lx i)) ∧
    SymmetryOf 3 (rndMol lin).pos (rndMol lin).weights (rndMol lin).axes rndHess rndOne3 rndOne4 id thirdTurn ∧
    SymmetryOf 3 (rndMol lin).pos (rndMol lin).weights (rndMol lin).axes rndHess rndOne3 rndOne4 id (flipAxes 1) ∧
    (∀ a < 3, ∀ b < 3, (∀ c < 3, (rndMol lin).pos a c = (rndMol lin).pos b c) → a = b) ∧
    (∀ p q, p < 3 → q < 3 → p ≠ q → ∀ v, form2 9 rndHess (applyAxes (rndMol lin).axes (turnedAbout (rndMol lin).pos p q)) v = 0) ∧
    (∀ a < 3, (rndMol lin).pos a 0 = 0 ∧ (rndMol lin).pos a 1 = 0) ∧ (rndMol lin).iatom < 3 ∧
    (∀ i j, i < j → j < 3 → entryOf hout.harms i = entryOf hout.harms j →
      ¬ ∀ r < 9, brought id thirdTurn (columnEntry hout.lx i) r = columnEntry hout.lx i r) ∧
    ∀ i j, i < j → j < 3 → entryOf hout.harms i = entryOf hout.harms j →
      columnEntry hout.lx i (3 * (rndMol lin).iatom) ≠ 0 ∧ columnEntry hout.lx j (3 * (rndMol lin).iatom) = 0 := by
  have hp : ∀ i < 9, rndPerm i < 9 := fun i hi => by unfold rndPerm; split_ifs <;> omega
  have hpp : ∀ i, rndPerm (rndPerm i) = i := fun i => by unfold rndPerm; split_ifs <;> omega
  have pos : ∀ a x, (rndMol lin).pos a x = if x = 2 then (a : ℝ) else 0 := fun a x => rfl
  have hax : (rndMol lin).axes = idAxes := rfl
  have core : ∀ i < 3, entryOf hout.harms i = coreLevels i := fun i hi => by
    rw [hw i hi]
    interval_cases i <;> norm_num [coreLevels, rndFreq]
  have pair : ∀ i j, i < j → j < 3 → entryOf hout.harms i = entryOf hout.harms j → i = 0 ∧ j = 1 := by
    intro i j hij hj he
    rw [core i (by omega), core j hj] at he
    exact coreLevels_close hij hj (by rw [he, sub_self, abs_zero]; norm_num)
  refine ⟨fun _ _ => one_pos, idAxes_orthogonal, rfl, rfl, diagHessian_symm _ _,
    turnedOracles_exact hp hpp (by norm_num) (by omega), ?_, fun i hi => ?_, ?_, rnd_symmetry lin ?_ ?_, rnd_symmetry lin ?_ ?_, ?_, ?_,
    fun a _ => ⟨rfl, rfl⟩, by show 0 < 3; omega, ?_, ?_⟩
  · intro i j hi hj hij
    have key : ∀ a b, a < b → b < 3 → |entryOf hout.harms a - entryOf hout.harms b| < (if (rndMol lin).linear then 1 else 0.1) →
        entryOf hout.harms a = entryOf hout.harms b := by
      intro a b hab hb h
      rw [core a (by omega), core b hb] at h ⊢
      obtain ⟨rfl, rfl⟩ := coreLevels_close hab hb (lt_trans h (by split <;> norm_num))
      norm_num [coreLevels]
    rcases Nat.lt_trichotomy i j with e | e | e
    · exact key i j e hj hij
    · rw [e]
    · rw [abs_sub_comm] at hij
      exact (key j i e hi hij).symm
  · rw [hw i hi]
    interval_cases i <;> norm_num [rndFreq]
  · refine core_twofold hp hpp (by norm_num) (by norm_num) (by norm_num) core fun i hi => ?_
    obtain ⟨e, he, hc⟩ := hcol i hi
    refine ⟨e, he, fun r hr => ?_⟩
    rw [hax, applyAxes_id]
    exact hc r hr
  · simp [thirdTurn]
  · have s3 : Real.sqrt 3 ^ 2 = 3 := Real.sq_sqrt (by norm_num)
    refine ⟨?_, ?_, ?_⟩ <;> simp [thirdTurn] <;> ring_nf <;> rw [s3] <;> ring
  · simp [flipAxes]
  · simp [flipAxes]
  · intro a _ b _ h
    have := h 2 (by norm_num)
    rw [pos, pos, if_pos rfl, if_pos rfl] at this
    exact_mod_cast this
  · intro p q hp3 hq3 hpq v
    rw [hax, applyAxes_id, rnd_form2]
    unfold turnedAbout
    simp only [pos]
    interval_cases p <;> interval_cases q <;> first | exact absurd rfl hpq | norm_num
  · intro i j hij hj he hall
    obtain ⟨rfl, rfl⟩ := pair i j hij hj he
    obtain ⟨e, he, hc⟩ := hcol 0 (by omega)
    have := hall 0 (by omega)
    rw [carried_zero rfl _ _ _ (by omega), hc 0 (by omega), hc 1 (by omega), hc 2 (by omega)] at this
    simp [thirdTurn, rndPerm] at this
    rcases he with rfl | rfl <;> norm_num at this
  · intro i j hij hj he
    obtain ⟨rfl, rfl⟩ := pair i j hij hj he
    obtain ⟨e, he, hc0⟩ := hcol 0 (by omega)
    obtain ⟨_, _, hc1⟩ := hcol 1 (by omega)
    show columnEntry hout.lx 0 0 ≠ 0 ∧ columnEntry hout.lx 1 0 = 0
    rw [hc0 0 (by omega), hc1 0 (by omega)]
    simp only [rndPerm]
    rcases he with rfl | rfl <;> norm_num

/-- The hypotheses of `c110_symmetry`, `c110_molecule_partial` and `c110_molecule_rotating_partial` are met by a run of an oblate
top in which the third mode changes the moments of inertia and is anharmonic and the degenerate mode has a Coriolis constant;
the energies of which the conclusions speak exist. -/
example (j σ : ℝ) (hσ : σ ^ 2 = 1) : ∃ (out hout : Output ℝ Nat),
    let s := rndMol false
    let w := entryOf hout.harms
    let φ := cubicField 9 s.axes rndOne3 w out.lx
    let ψ := quarticField 9 s.axes rndOne4 w out.lx
    let ζ := zetaField 3 out.lxm
    let A := inertiaField 3 s.pos s.weights out.lxm
    let level := fun (n : Nat → Nat) (J : Nat → ℝ) (e : ℝ) => ∃ E0 E1 E2, e = E0 + E1 + E2 ∧
      RotEnergy 16 s.primat A w φ ψ ζ J (fun i : Fin 3 => n i) E0 E1 E2
    run s (turnedOracles 9 rndPerm (3 / 5) (4 / 5)) (.quartic rndHess rndOne3 rndOne4) = some out ∧
    run s (turnedOracles 9 rndPerm (3 / 5) (4 / 5)) (.harmonic rndHess) = some hout ∧
    A 2 1 1 ≠ 0 ∧ φ 2 2 2 ≠ 0 ∧ ζ 0 1 2 ≠ 0 ∧
    (VibRot.mk s.rotcon s.primat w A ζ φ).Axial out.resonances.modes (fun _ => 1) 0 1 ∧
    ∃ r0 ∈ out.rots, ∃ r ∈ out.rots,
      (∃ E E' G G' F H, level (Osc.single 0) (about 1 j) E ∧ level (Osc.single 1) (about 1 j) E' ∧
        level (Osc.single 0) (about 1 0) G ∧ level (Osc.single 1) (about 1 0) G' ∧
        level (fun _ => 0) (about 1 j) F ∧ level (fun _ => 0) (about 1 0) H ∧
        ((E - G) + (E' - G')) / 2 - ((F - H) + (F - H)) / 2 = (axisConst r 1 - axisConst r0 1 +
          ∑ i ∈ range 3, roundedPart 3 16 s.primat w A φ i 1 *
            (((Osc.single 0 i : Nat) + (Osc.single 1 i : Nat) : ℝ) / 2 - (((0 : Nat) : ℝ) + (0 : Nat)) / 2)) * j ^ 2) ∧
      ∃ E0 E1 E2 G0 G1 G2 F H,
        RotPairEnergy 16 s.primat A w φ ψ ζ (about 2 j) (fun i : Fin 3 => if (i : Nat) = 0 then 1 else 0)
          (fun i : Fin 3 => if (i : Nat) = 1 then 1 else 0) σ E0 E1 E2 ∧
        RotPairEnergy 16 s.primat A w φ ψ ζ (about 2 0) (fun i : Fin 3 => if (i : Nat) = 0 then 1 else 0)
          (fun i : Fin 3 => if (i : Nat) = 1 then 1 else 0) σ G0 G1 G2 ∧
        level (fun _ => 0) (about 2 j) F ∧ level (fun _ => 0) (about 2 0) H ∧
        E1 = -(σ * (2 * s.rotcon 2 * ζ 0 1 2)) * j := by
  obtain ⟨out, hout, e, b, f, g, h3, h4, h, hh, el, elm, hcol, hc, hm, he, hb, hf, hw, pa, p3, p4, pz, ⟨r0, hr0, hst0⟩, r, hr, hst⟩ :=
    rnd_run false
  obtain ⟨m1, m2, m3, m4, m5, m6, m7, m8, m9, m10, m11, m12, m13, m14, m15, m16, m17⟩ := rnd_molecule false hw hcol
  have conv : ∀ {n : Fin 3 → Nat} {J : Nat → ℝ},
      (∃ E0 E1 E2, RotEnergy 16 rndI (rndA b) rndFreq (rndF3 f) (rndF4 g) (rndZeta e) J n E0 E1 E2) →
      ∃ e' E0 E1 E2, e' = E0 + E1 + E2 ∧
      RotEnergy 16 (rndMol false).primat (inertiaField 3 (rndMol false).pos (rndMol false).weights out.lxm) (entryOf hout.harms)
        (cubicField 9 (rndMol false).axes rndOne3 (entryOf hout.harms) out.lx)
        (quarticField 9 (rndMol false).axes rndOne4 (entryOf hout.harms) out.lx) (zetaField 3 out.lxm) J n E0 E1 E2 := by
    rintro n J ⟨E0, E1, E2, hE⟩
    exact ⟨_, E0, E1, E2, rfl, (rotEnergy_congr hw pa p3 p4 pz).2 hE⟩
  obtain ⟨E, hE⟩ := conv (rnd_comp 16 rndI e b f g j 0 (.inl rfl))
  obtain ⟨E', hE'⟩ := conv (rnd_comp 16 rndI e b f g j 1 (.inr rfl))
  obtain ⟨G, hG⟩ := conv (rnd_comp 16 rndI e b f g 0 0 (.inl rfl))
  obtain ⟨G', hG'⟩ := conv (rnd_comp 16 rndI e b f g 0 1 (.inr rfl))
  obtain ⟨F, hF⟩ := conv (rnd_ground 16 rndI e b f g 1 j)
  obtain ⟨H, hH⟩ := conv (rnd_ground 16 rndI e b f g 1 0)
  obtain ⟨F', hF'⟩ := conv (rnd_ground 16 rndI e b f g 2 j)
  obtain ⟨H', hH'⟩ := conv (rnd_ground 16 rndI e b f g 2 0)
  obtain ⟨E0, E1, E2, hP⟩ := rnd_pair e b f g j σ hσ
  obtain ⟨G0, G1, G2, hQ⟩ := rnd_pair e b f g 0 σ hσ
  have hP := (rotPairEnergy_congr (σ := σ) hw pa p3 p4 pz).2 hP
  have hQ := (rotPairEnergy_congr (σ := σ) hw pa p3 p4 pz).2 hQ
  have hnr : NoResonance 3 (entryOf hout.harms) := by
    intro i j k hi hj hk
    rw [hw i hi, hw j hj, hw k hk]
    exact rndFreq_noRes i j k hi hj hk
  have hpl : (1 : ℝ) = 1 → ∀ i j, i < j → j < 3 → entryOf hout.harms i = entryOf hout.harms j →
      inertiaField 3 (rndMol false).pos (rndMol false).weights hout.lxm i 2 0 = 0 := by
    intro _ i j hij hj _
    rw [← elm, pa _ _ _ (by omega) (by norm_num) (by norm_num)]
    norm_num [rndA]
  have hal : ∀ i j, i < j → j < 3 → entryOf hout.harms i = entryOf hout.harms j →
      columnEntry hout.lx i (3 * (rndMol false).iatom) ≠ 0 ∧ columnEntry hout.lx j (3 * (rndMol false).iatom) = 0 ∨
      (1 : ℝ) = -1 ∧ columnEntry hout.lx i (3 * (rndMol false).iatom + 2) = 0 ∧ columnEntry hout.lx j (3 * (rndMol false).iatom + 2) ≠ 0 :=
    fun i j a b c => .inl (m17 i j a b c)
  have hon : (rndMol false).pos (rndMol false).iatom 1 = 0 ∧ ((1 : ℝ) = -1 → (rndMol false).pos (rndMol false).iatom 2 = 0) :=
    ⟨(m14 0 (by norm_num)).2, fun q => absurd q (by norm_num)⟩
  have hz : ∀ x, x ≠ 2 → x < 3 → ∀ k k2, .i2 k k2 ∈ out.resonances.modes → zetaField 3 out.lxm k k2 x = 0 := by
    intro x hx hx3 k k2 hk
    rw [hm] at hk
    simp at hk
    obtain ⟨rfl, rfl⟩ := hk
    rw [pz _ _ _ (by norm_num) (by norm_num) hx3]
    simp [rndZeta, hx]
  obtain ⟨-, hA, -⟩ := c110_symmetry (rndMol false) _ rndHess rndOne3 rndOne4 out hout rfl rfl (by decide : 3 ≤ 9) m1 m2 m3 m4 m5 h3 m6
    h hh m7 m8 m9 id id 1 (.inl rfl) m10 m11 m12 m13 m15 hon m16 hal
  rw [if_pos rfl, if_pos rfl] at hA
  obtain ⟨-, key⟩ := c110_molecule_partial (rndMol false) _ rndHess rndOne3 rndOne4 out hout rfl rfl (by decide : 3 ≤ 9) (by decide : 0 < 3)
    m1 m2 m3 16 (by norm_num) (fun _ _ => rfl) m5 h3 h4 m6 h hh hc m7 m8 hnr m9 id id 1 (.inl rfl) m10 m11 m12 m13 m15 hon m16 hal hpl
    r0 hr0 r hr
  have key := key (Osc.single 0) (Osc.single 1) (fun _ => 0) (fun _ => 0) (by rw [hst, hm]; exact rnd_components)
    (by rw [hst0, hm]; exact rnd_components0) 1 (.inl rfl) (fun k k2 hk => .inl (hz 1 (by norm_num) (by norm_num) k k2 hk)) j E E' G G'
    F F H H hE hE' hG hG' hF hF hH hH
  have l0 : 0 < (degPairs out.resonances.modes).length := by rw [hm]; decide
  have keyr := c110_molecule_rotating_partial (rndMol false) _ rndHess rndOne3 rndOne4 out hout rfl rfl (by decide : 3 ≤ 9)
    (by decide : 0 < 3) m1 m2 m3 16 (by norm_num) (fun _ _ => rfl) m5 h3 h4 m6 h hh hc m7 m8 hnr m9 id id 1 (.inl rfl) m10 m11 m12 m13
    m15 hon m16 hal hpl r0 hr0 r hr 0 l0 (by rw [hst]; rfl)
  have d0 : (degPairs out.resonances.modes)[0] = (0, 1) := by simp only [hm]; rfl
  rw [d0] at keyr
  obtain ⟨-, -, k1, -⟩ := keyr (fun _ => 0) (fun _ => 0) (by rw [hst0, hm]; exact rnd_components0) 2 (.inr rfl)
    (fun k k2 hk => .inr ⟨rfl, rfl⟩) σ hσ j E0 E1 E2 G0 G1 G2 F' F' H' H' hP hQ hF' hF' hH' hH'
  refine ⟨out, hout, h, hh, ?_, ?_, ?_, hA, r0, hr0, r, hr, ⟨E, E', G, G', F, H, hE, hE', hG, hG', hF, hH, key⟩,
    E0, E1, E2, G0, G1, G2, F', H', hP, hQ, hF', hH', k1⟩
  · rw [pa _ _ _ (by norm_num) (by norm_num) (by norm_num)]
    intro h0
    norm_num [rndA] at h0
    rw [h0] at hb
    norm_num at hb
  · rw [p3 _ _ _ (by norm_num) (by norm_num) (by norm_num)]
    simpa [rndF3] using hf
  · rw [pz _ _ _ (by norm_num) (by norm_num) (by norm_num)]
    intro h0
    norm_num [rndZeta] at h0
    rw [h0] at he
    norm_num at he

/-- The hypotheses of `c110_molecule_linear` are met by a run of a linear molecule in which the third mode changes the moments of
inertia and is anharmonic and the degenerate mode has a Coriolis constant; the energies of which the conclusion speaks exist. -/
example (j : ℝ) : ∃ (out hout : Output ℝ Nat),
    let s := rndMol true
    let w := entryOf hout.harms
    let φ := cubicField 9 s.axes rndOne3 w out.lx
    let ψ := quarticField 9 s.axes rndOne4 w out.lx
    let ζ := zetaField 3 out.lxm
    let A := inertiaField 3 s.pos s.weights out.lxm
    let level := fun (n : Nat → Nat) (j : ℝ) (e : ℝ) => ∃ E0 E1 E2, e = E0 + E1 + E2 ∧
      LinearRotEnergy 16 s.primat A w φ ψ ζ (about 1 j) (fun i : Fin 3 => n i) E0 E1 E2
    run s (turnedOracles 9 rndPerm (3 / 5) (4 / 5)) (.quartic rndHess rndOne3 rndOne4) = some out ∧
    run s (turnedOracles 9 rndPerm (3 / 5) (4 / 5)) (.harmonic rndHess) = some hout ∧
    A 2 1 1 ≠ 0 ∧ φ 2 2 2 ≠ 0 ∧ ζ 0 1 2 ≠ 0 ∧
    ∃ r ∈ out.rots, ∃ E E' G G', level (Osc.single 0) j E ∧ level (Osc.single 1) j E' ∧ level (Osc.single 0) 0 G ∧
      level (Osc.single 1) 0 G' ∧
      ((E - G) + (E' - G')) / 2 = (printedB out.rotEquil r + ∑ i ∈ range 3, roundedPart 3 16 s.primat w A φ i 1 *
          (((Osc.single 0 i : Nat) + (Osc.single 1 i : Nat) : ℝ) / 2 + 1 / 2)) * j ^ 2 +
        8 * 16 ^ 3 / 38333.84078 * (1 / 4 * tauSpec 3 w s.primat A 1 1 1 1) * j ^ 4 := by
  obtain ⟨out, hout, e, b, f, g, h3, h4, h, hh, el, elm, hcol, hc, hm, he, hb, hf, hw, pa, p3, p4, pz, -, r, hr, hst⟩ := rnd_run true
  obtain ⟨m1, m2, m3, m4, m5, m6, m7, m8, m9, m10, m11, m12, m13, m14, m15, m16, m17⟩ := rnd_molecule true hw hcol
  have lev : ∀ (k : Fin 3) (hk : k = 0 ∨ k = 1) (j : ℝ), ∃ e' E0 E1 E2, e' = E0 + E1 + E2 ∧
      LinearRotEnergy 16 (rndMol true).primat (inertiaField 3 (rndMol true).pos (rndMol true).weights out.lxm) (entryOf hout.harms)
        (cubicField 9 (rndMol true).axes rndOne3 (entryOf hout.harms) out.lx)
        (quarticField 9 (rndMol true).axes rndOne4 (entryOf hout.harms) out.lx) (zetaField 3 out.lxm) (about 1 j)
        (fun i : Fin 3 => Osc.single k i) E0 E1 E2 := by
    intro k hk j
    obtain ⟨E0, E1, E2, hE⟩ := rnd_comp 16 (dropAxis (rndMol true).primat) e b f g j k hk
    exact ⟨_, E0, E1, E2, rfl, (linearRotEnergy_congr hw pa p3 p4 pz).2 (linear_rotEnergy.2 hE)⟩
  obtain ⟨E, hE⟩ := lev 0 (.inl rfl) j
  obtain ⟨E', hE'⟩ := lev 1 (.inr rfl) j
  obtain ⟨G, hG⟩ := lev 0 (.inl rfl) 0
  obtain ⟨G', hG'⟩ := lev 1 (.inr rfl) 0
  have hnr : NoResonance 3 (entryOf hout.harms) := by
    intro i j k hi hj hk
    rw [hw i hi, hw j hj, hw k hk]
    exact rndFreq_noRes i j k hi hj hk
  have key := c110_molecule_linear (rndMol true) _ rndHess rndOne3 rndOne4 out hout rfl rfl (by decide : 3 ≤ 9) (by decide : 0 < 3)
    m1 m2 m3 16 (by norm_num) rfl m4 m5 h3 h4 m6 h hh hc m7 m8 hnr m9 m14 m10 m11 m12 m13 m15 m16 m17 r hr (Osc.single 0) (Osc.single 1)
    (by rw [hst, hm]; exact rnd_components) j E E' G G' hE hE' hG hG'
  refine ⟨out, hout, h, hh, ?_, ?_, ?_, r, hr, E, E', G, G', hE, hE', hG, hG', key⟩
  · rw [pa _ _ _ (by norm_num) (by norm_num) (by norm_num)]
    intro h0
    norm_num [rndA] at h0
    rw [h0] at hb
    norm_num at hb
  · rw [p3 _ _ _ (by norm_num) (by norm_num) (by norm_num)]
    simpa [rndF3] using hf
  · rw [pz _ _ _ (by norm_num) (by norm_num) (by norm_num)]
    intro h0
    norm_num [rndZeta] at h0
    rw [h0] at he
    norm_num at he

end Verif
