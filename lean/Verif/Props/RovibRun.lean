import Verif.Lemmas.EquivalentExample
import Verif.Lemmas.RovibRun
import Verif.Props.ThreefoldRun

/-!
# The rotational constants a run reports for oblate tops and linear molecules (C110)
-/

namespace Verif

open Finset Osc

/-- What the proofs need to know about a completed run. -/
theorem rovib_run_parts {ι : Type} {s : SpectroIn ℝ} {o : Oracles ℝ ι} {fc2 : Mat ℝ} {f3x : T3 ℝ} {f4x : T4 ℝ}
    {out hout : Output ℝ ι} (hr : s.rotor.isSymTop = true) (hr' : s.rotor ≠ .sphericalTop) (hn : s.n3n = 3 * s.natom)
    (hv : s.nvib ≤ s.n3n) (h0 : 0 < s.nvib) (h3 : Symm3 s.n3n f3x) (h4 : Symm4 s.n3n f4x)
    (h : run s o (.quartic fc2 f3x f4x) = some out) (hh : run s o (.harmonic fc2) = some hout)
    (hc : out.resonances.coriolis = []) {m m' : Nat} (hm3 : m < 3) (hm3' : m' < 3)
    (hm : (modeNumbers out.resonances.modes).Perm (List.range s.nvib))
    (hD : (VibRot.mk s.rotcon s.primat (entryOf hout.harms) (inertiaField s.natom s.pos s.weights out.lxm)
      (zetaField s.natom out.lxm) (cubicField s.n3n s.axes f3x (entryOf hout.harms) out.lx)).Axial out.resonances.modes
        (fun _ => 1) m m') :
    ∃ (w : Vec ℝ) (wila : Mat ℝ) (ζ φ : T3 ℝ) (ψ : T4 ℝ) (t : StateTab) (R : Mat ℝ),
      (∀ i < s.nvib, w i = entryOf hout.harms i) ∧
      (∀ k a b, k < s.nvib → a < 3 → b < 3 → wila k (pairIdx a b) = inertiaField s.natom s.pos s.weights out.lxm k a b) ∧
      (∀ i j k, i < s.nvib → j < s.nvib → k < s.nvib → φ i j k = cubicField s.n3n s.axes f3x (entryOf hout.harms) out.lx i j k) ∧
      (∀ i j k l, i < s.nvib → j < s.nvib → k < s.nvib → l < s.nvib →
        ψ i j k l = quarticField s.n3n s.axes f4x (entryOf hout.harms) out.lx i j k l) ∧
      (∀ i j a, i < s.nvib → j < s.nvib → a < 3 → ζ i j a = zetaField s.natom out.lxm i j a) ∧
      (vibRot s.rotcon s.primat w wila ζ φ).Axial out.resonances.modes (fun _ => 1) m m' ∧
      newStates s.nvib s.i2vib out.resonances.modes = some t ∧ out.resonances.states = t.states ∧
      Quartic.new s.rotor s.nvib s.rotcon s.primat w wila = some out.quartic ∧
      alphas s.rotor s.rotcon s.primat w wila ζ φ out.resonances.modes t.states [] = some R ∧
      rots s.rotor t.states.length s.rotcon R t.states out.quartic = some out.rots ∧ out.rotEquil = s.rotcon := by
  obtain ⟨md, F4, hmd, hF, hfin⟩ := run_quartic h
  obtain ⟨md', hmd', -, -, -, hfr⟩ := harmonic_facts hh
  obtain rfl : md = md' := Option.some.inj (hmd.symm.trans hmd')
  obtain ⟨r, x, hf, zc, v, v', hrs, -, -, -, hvec, hvec', -, -, -, -, -, e6, e1, e2, -, rfl⟩ := finish_parts hfin
  obtain ⟨t, ht, -, hst, -⟩ := restst_parts hrs
  obtain ⟨R, hq, ha, hro⟩ := finish_rots hr hr' hfin
  rw [← e1] at hvec
  rw [← e2] at hvec'
  obtain ⟨c3, c4, cz, ca⟩ := field_parts hn hv h0 h3 h4 hF hvec hvec' hfr
  rw [hc, hst] at ha
  rw [hst] at hro
  refine ⟨_, _, _, _, _, t, R, hfr, ca, c3, c4, cz, ?_, ht, hst, hq, ha, hro, e6⟩
  refine axial_congr (N := s.nvib) hm3 hm3' (fun k hk => List.mem_range.1 (hm.mem_iff.1 hk)) ?_ ?_ ?_ ?_ ?_
    (fun i j x => makeZmat_anti _ _ _ _ _ _) (fun i j k => f3Of_symm _ _ _ _) (vibRot_tensor _ _ _ _ _ _) hD
  · rfl
  · exact hfr
  · exact ca
  · exact cz
  · exact c3

theorem forall₂_mem {α β : Type} {P : α → β → Prop} {l : List α} {l' : List β} (h : List.Forall₂ P l l') {b : β} (hb : b ∈ l') :
    ∃ a ∈ l, P a b := by
  induction h with
  | nil => cases hb
  | cons h1 _ ih =>
    rcases List.mem_cons.1 hb with rfl | hb
    · exact ⟨_, List.mem_cons_self, h1⟩
    · obtain ⟨a, m, p⟩ := ih hb
      exact ⟨a, List.mem_cons_of_mem _ m, p⟩

/-- C110, runs of linear molecules: if a run reports no Coriolis resonance, the constant printed for a state is the
coefficient of `j²` in the energy which the angular momentum `j` perpendicular to the axis adds to the state, by
perturbation theory of second order for Watson's Hamiltonian of the linear molecule whose force field, Coriolis constants and
inertia derivatives are those of the input, averaged over the states which the code lists as one. The rounding of the
constant `0.086112` is stated explicitly, as is the coefficient of `j⁴`. -/
theorem c110_run_linear {ι : Type} (s : SpectroIn ℝ) (o : Oracles ℝ ι) (fc2 : Mat ℝ) (f3x : T3 ℝ) (f4x : T4 ℝ)
    (out hout : Output ℝ ι) (hr : s.rotor = .linear) (hn : s.n3n = 3 * s.natom) (hv : s.nvib ≤ s.n3n) (h0 : 0 < s.nvib)
    (h3 : Symm3 s.n3n f3x) (h4 : Symm4 s.n3n f4x)
    (h : run s o (.quartic fc2 f3x f4x) = some out) (hh : run s o (.harmonic fc2) = some hout)
    (κ : ℝ) (hκ : 0 < κ) (hB : s.rotcon 1 = κ / s.primat 1) (hc : out.resonances.coriolis = [])
    (hp : ∀ i < s.nvib, 0 < entryOf hout.harms i) (hw : NoResonance s.nvib (entryOf hout.harms)) :
    let modes := out.resonances.modes
    let w := entryOf hout.harms
    let φ := cubicField s.n3n s.axes f3x w out.lx
    let ψ := quarticField s.n3n s.axes f4x w out.lx
    let ζ := zetaField s.natom out.lxm
    let A := inertiaField s.natom s.pos s.weights out.lxm
    let level := fun (n : Nat → Nat) (j : ℝ) (e : ℝ) => ∃ E0 E1 E2, e = E0 + E1 + E2 ∧
      LinearRotEnergy κ s.primat A w φ ψ ζ (about 1 j) (fun i : Fin s.nvib => n i) E0 E1 E2
    (modeNumbers modes).Perm (List.range s.nvib) →
    (VibRot.mk s.rotcon s.primat w A ζ φ).Axial modes (fun _ => 1) 1 0 →
    (∀ k k2, .i2 k k2 ∈ modes → A k 1 1 = 0) →
    (∀ k k2 j j2, .i2 k k2 ∈ modes → .i2 j j2 ∈ modes → ζ k j 0 = 0 ∧ ζ k j 1 = 0 ∧ ζ k j2 1 = 0) →
    (∀ i j, i < s.nvib → j < s.nvib → i ≠ j → w i = w j → .i2 i j ∈ modes ∨ .i2 j i ∈ modes) →
    ∀ r ∈ out.rots, ∀ n n', Components modes r.state n n' → ∀ j E E' G G',
      level n j E → level n' j E' → level n 0 G → level n' 0 G' →
      ((E - G) + (E' - G')) / 2 =
        (printedB out.rotEquil r + ∑ i ∈ range s.nvib, roundedPart s.nvib κ s.primat w A φ i 1 *
          (((n i : ℝ) + n' i) / 2 + 1 / 2)) * j ^ 2 +
        8 * κ ^ 3 / 38333.84078 * (1 / 4 * tauSpec s.nvib w s.primat A 1 1 1 1) * j ^ 4 := by
  intro modes w φ ψ ζ A level hm hD hb hζ hd r hmem n n' hcomp j E E' G G' hE hE' hG hG'
  obtain ⟨w', wila, ζ', φ', ψ', t, R, cw, ca, c3, c4, cz, hD', ht, hst, hq, ha, hro, he⟩ :=
    rovib_run_parts (by rw [hr]; rfl) (by rw [hr]; decide) hn hv h0 h3 h4 h hh hc (by norm_num) (by norm_num) hm hD
  have lt : ∀ k, k ∈ modeNumbers modes → k < s.nvib := fun k hk => List.mem_range.1 (hm.mem_iff.1 hk)
  have l2 : ∀ k k2, .i2 k k2 ∈ modes → k < s.nvib ∧ k2 < s.nvib := fun k k2 hk =>
    ⟨lt k (mem_modeNumbers_pair hk).1, lt k2 (mem_modeNumbers_pair hk).2⟩
  rw [hr] at ha hro hq
  have S4 : Symm4 s.nvib ψ' := by
    have S := quarticField_symm h4 s.axes w out.lx s.nvib
    intro a b c d ha hb hc hd
    rw [c4 a b c d ha hb hc hd, c4 b a c d hb ha hc hd, c4 a c b d ha hc hb hd, c4 a b d c ha hb hd hc]
    exact S a b c d ha hb hc hd
  obtain ⟨R', hR', hv'⟩ := c110_linear modes s.nvib s.i2vib t ht hm κ s.rotcon s.primat w' wila ζ' φ' ψ' hκ hB hD'
    (fun k k2 hk => by rw [ca k 1 1 (l2 k k2 hk).1 (by norm_num) (by norm_num)]; exact hb k k2 hk)
    (fun k k2 j j2 hk hj => by
      rw [cz k j 0 (l2 k k2 hk).1 (l2 j j2 hj).1 (by norm_num), cz k j 1 (l2 k k2 hk).1 (l2 j j2 hj).1 (by norm_num),
        cz k j2 1 (l2 k k2 hk).1 (l2 j j2 hj).2 (by norm_num)]
      exact hζ k k2 j j2 hk hj)
    S4 (fun i hi => by rw [cw i hi]; exact hp i hi)
    (fun i j k hi hj hk => by rw [cw i hi, cw j hj, cw k hk]; exact hw i j k hi hj hk)
    (fun i j hi hj hij e => hd i j hi hj hij (by rw [cw i hi, cw j hj] at e; exact e))
  obtain rfl : R' = R := Option.some.inj (hR'.symm.trans ha)
  obtain ⟨rs, hrs, hf⟩ := c43_linear s.nvib t.states.length s.rotcon s.primat w' wila R' t.states out.quartic le_rfl hq
  obtain rfl : rs = out.rots := Option.some.inj (hrs.symm.trans hro)
  obtain ⟨p, hp1, hp2, hp3⟩ := forall₂_mem hf hmem
  obtain ⟨-, -, key⟩ := hv' p.1 p.2 (reported_get hp1)
  have conv : ∀ n j e, level n j e → ∃ E0 E1 E2, e = E0 + E1 + E2 ∧
      LinearRotEnergy κ s.primat (fun k a b => wila k (pairIdx a b)) w' φ' ψ' ζ' (about 1 j) (fun i : Fin s.nvib => n i) E0 E1 E2 := by
    rintro n j e ⟨E0, E1, E2, a, b⟩
    exact ⟨E0, E1, E2, a, (linearRotEnergy_congr cw ca c3 c4 cz).2 b⟩
  rw [key n n' (by rw [← hp2]; exact hcomp) j E E' G G' (conv _ _ _ hE) (conv _ _ _ hE') (conv _ _ _ hG) (conv _ _ _ hG'), he,
    hp3, c44_value, tauSpec_congr cw ca (by norm_num)]
  congr 3
  exact sum_congr rfl fun i hi => by rw [roundedPart_congr cw ca c3 (mem_range.1 hi) (by norm_num)]

/-- C110, runs of oblate tops: if a run reports no Coriolis resonance and the data have the symmetry of a three-fold or
six-fold axis, any two states `r`, `r₀` which it reports differ in their rotational constants as perturbation theory of second
order for Watson's Hamiltonian says: with `E`, `E'` the energies of the two states which the code lists as `r` with the
angular momentum `j` about axis `x` and `G`, `G'` those without, and `F`, `F'`, `H`, `H'` the same for `r₀`, the difference
of the means is `(B - B₀) j²`, but for the rounding of the constant `0.086112`. The two constants of the perpendicular axes
change alike. Here the angular momentum must not couple the components of a degenerate mode which has quanta; for the unique
axis and a degenerate mode with a quantum see `c110_run_rotating_partial`.
Missing: prolate tops (see `c43_prolate_violated`), four-fold axes (see `c83_fourfold_violated`). -/
theorem c110_run_partial {ι : Type} (s : SpectroIn ℝ) (o : Oracles ℝ ι) (fc2 : Mat ℝ) (f3x : T3 ℝ) (f4x : T4 ℝ)
    (out hout : Output ℝ ι) (hr : s.rotor = .oblateSymmTop) (hn : s.n3n = 3 * s.natom) (hv : s.nvib ≤ s.n3n) (h0 : 0 < s.nvib)
    (h3 : Symm3 s.n3n f3x) (h4 : Symm4 s.n3n f4x)
    (h : run s o (.quartic fc2 f3x f4x) = some out) (hh : run s o (.harmonic fc2) = some hout)
    (κ : ℝ) (hκ : 0 < κ) (hB : ∀ a < 3, s.rotcon a = κ / s.primat a) (hc : out.resonances.coriolis = [])
    (hp : ∀ i < s.nvib, 0 < entryOf hout.harms i) (hw : NoResonance s.nvib (entryOf hout.harms)) :
    let modes := out.resonances.modes
    let w := entryOf hout.harms
    let φ := cubicField s.n3n s.axes f3x w out.lx
    let ψ := quarticField s.n3n s.axes f4x w out.lx
    let ζ := zetaField s.natom out.lxm
    let A := inertiaField s.natom s.pos s.weights out.lxm
    let level := fun (n : Nat → Nat) (J : Nat → ℝ) (e : ℝ) => ∃ E0 E1 E2, e = E0 + E1 + E2 ∧
      RotEnergy κ s.primat A w φ ψ ζ J (fun i : Fin s.nvib => n i) E0 E1 E2
    (modeNumbers modes).Perm (List.range s.nvib) →
    (VibRot.mk s.rotcon s.primat w A ζ φ).Axial modes (fun _ => 1) 1 0 →
    (∀ i j, i < s.nvib → j < s.nvib → i ≠ j → w i = w j → .i2 i j ∈ modes ∨ .i2 j i ∈ modes) →
    ∀ r0 ∈ out.rots, ∀ r ∈ out.rots, r.a - r0.a = r.b - r0.b ∧
      ∀ n n' m m', Components modes r.state n n' → Components modes r0.state m m' → ∀ x, (x = 1 ∨ x = 2) →
      (∀ k k2, .i2 k k2 ∈ modes → ζ k k2 x = 0 ∨ (n k = 0 ∧ n k2 = 0 ∧ m k = 0 ∧ m k2 = 0)) → ∀ j E E' G G' F F' H H',
      level n (about x j) E → level n' (about x j) E' → level n (about x 0) G → level n' (about x 0) G' →
      level m (about x j) F → level m' (about x j) F' → level m (about x 0) H → level m' (about x 0) H' →
      ((E - G) + (E' - G')) / 2 - ((F - H) + (F' - H')) / 2 =
        (axisConst r x - axisConst r0 x + ∑ i ∈ range s.nvib, roundedPart s.nvib κ s.primat w A φ i x *
          (((n i : ℝ) + n' i) / 2 - ((m i : ℝ) + m' i) / 2)) * j ^ 2 := by
  intro modes w φ ψ ζ A level hm hD hd
  obtain ⟨w', wila, ζ', φ', ψ', t, R, cw, ca, c3, c4, cz, hD', ht, hst, hq, ha, hro, he⟩ :=
    rovib_run_parts (by rw [hr]; rfl) (by rw [hr]; decide) hn hv h0 h3 h4 h hh hc (by norm_num) (by norm_num) hm hD
  have lt : ∀ k, k ∈ modeNumbers modes → k < s.nvib := fun k hk => List.mem_range.1 (hm.mem_iff.1 hk)
  have l2 : ∀ k k2, .i2 k k2 ∈ modes → k < s.nvib ∧ k2 < s.nvib := fun k k2 hk =>
    ⟨lt k (mem_modeNumbers_pair hk).1, lt k2 (mem_modeNumbers_pair hk).2⟩
  rw [hr] at ha hro hq
  have S4 : Symm4 s.nvib ψ' := by
    have S := quarticField_symm h4 s.axes w out.lx s.nvib
    intro a b c d ha hb hc hd
    rw [c4 a b c d ha hb hc hd, c4 b a c d hb ha hc hd, c4 a c b d ha hc hb hd, c4 a b d c ha hb hd hc]
    exact S a b c d ha hb hc hd
  obtain ⟨R', hR', hv'⟩ := c110_levels_partial .oblateSymmTop (by decide) (by decide) modes s.nvib s.i2vib t ht hm κ s.rotcon
    s.primat w' wila ζ' φ' ψ' hκ hB hD' S4 (fun i hi => by rw [cw i hi]; exact hp i hi)
    (fun i j k hi hj hk => by rw [cw i hi, cw j hj, cw k hk]; exact hw i j k hi hj hk)
    (fun i j hi hj hij e => hd i j hi hj hij (by rw [cw i hi, cw j hj] at e; exact e))
  obtain rfl : R' = R := Option.some.inj (hR'.symm.trans ha)
  obtain ⟨rs, hrs, hf⟩ := c43_oblate_partial s.nvib t.states.length s.rotcon s.primat w' wila R' t.states out.quartic le_rfl hq
  obtain rfl : rs = out.rots := Option.some.inj (hrs.symm.trans hro)
  have b01 : s.rotcon 0 = s.rotcon 1 := by
    rw [hB 0 (by norm_num), hB 1 (by norm_num), show s.primat 0 = s.primat 1 from hD.inertia]
  have perp : ∀ u v, (u = 0 ∧ v = 1 ∨ u = 1 ∧ v = 0) → s.rotcon u = s.rotcon 1 ∧ s.rotcon v = s.rotcon 1 := by
    rintro u v (⟨rfl, rfl⟩ | ⟨rfl, rfl⟩)
    · exact ⟨b01, rfl⟩
    · exact ⟨rfl, b01⟩
  intro r0 hmem0 r hmem
  obtain ⟨p, hp1, hp2, ⟨u, v, huv, pa, pb⟩, pc⟩ := forall₂_mem hf hmem
  obtain ⟨p0, hq1, hq2, ⟨u0, v0, huv0, qa, qb⟩, qc⟩ := forall₂_mem hf hmem0
  rw [(perp _ _ huv).1] at pa
  rw [(perp _ _ huv).2] at pb
  rw [(perp _ _ huv0).1] at qa
  rw [(perp _ _ huv0).2] at qb
  refine ⟨by rw [pa, pb, qa, qb]; ring, ?_⟩
  intro n n' m m' hcn hcm x hx hz j E E' G G' F F' H H' hE hE' hG hG' hF hF' hH hH'
  have hx3 : x < 3 := by omega
  have conv : ∀ n J e, level n J e → ∃ E0 E1 E2, e = E0 + E1 + E2 ∧
      RotEnergy κ s.primat (fun k a b => wila k (pairIdx a b)) w' φ' ψ' ζ' J (fun i : Fin s.nvib => n i) E0 E1 E2 := by
    rintro n J e ⟨E0, E1, E2, a, b⟩
    exact ⟨E0, E1, E2, a, (rotEnergy_congr cw ca c3 c4 cz).2 b⟩
  have zz : ∀ k k2, .i2 k k2 ∈ modes → ζ' k k2 x = ζ k k2 x := fun k k2 hk => cz k k2 x (l2 k k2 hk).1 (l2 k k2 hk).2 hx3
  have k1 := hv' p.1 p.2 (reported_get hp1) n n' (by rw [← hp2]; exact hcn) x hx
    (fun k k2 hk => by rw [zz k k2 hk]; exact (hz k k2 hk).imp_right fun h => ⟨h.1, h.2.1⟩) j E E' G G'
    (conv _ _ _ hE) (conv _ _ _ hE') (conv _ _ _ hG) (conv _ _ _ hG')
  have k2 := hv' p0.1 p0.2 (reported_get hq1) m m' (by rw [← hq2]; exact hcm) x hx
    (fun k k2 hk => by rw [zz k k2 hk]; exact (hz k k2 hk).imp_right fun h => h.2.2) j F F' H H'
    (conv _ _ _ hF) (conv _ _ _ hF') (conv _ _ _ hH) (conv _ _ _ hH')
  have hax : axisConst r x - axisConst r0 x = R' p.1 x - R' p0.1 x := by
    unfold axisConst
    rcases hx with rfl | rfl
    · rw [if_neg (by norm_num), if_pos rfl, if_neg (by norm_num), if_pos rfl, pb, qb]; ring
    · rw [if_neg (by norm_num), if_neg (by norm_num), if_neg (by norm_num), if_neg (by norm_num), pc, qc]; ring
  have rp : ∑ i ∈ range s.nvib, roundedPart s.nvib κ s.primat w A φ i x * (((n i : ℝ) + n' i) / 2 - ((m i : ℝ) + m' i) / 2) =
      ∑ i ∈ range s.nvib, roundedPart s.nvib κ s.primat w' (fun k a b => wila k (pairIdx a b)) φ' i x *
        (((n i : ℝ) + n' i) / 2 + 1 / 2) -
      ∑ i ∈ range s.nvib, roundedPart s.nvib κ s.primat w' (fun k a b => wila k (pairIdx a b)) φ' i x *
        (((m i : ℝ) + m' i) / 2 + 1 / 2) := by
    rw [← sum_sub_distrib]
    refine sum_congr rfl fun i hi => ?_
    rw [roundedPart_congr cw ca c3 (mem_range.1 hi) hx3]
    ring
  rw [hax, rp]
  linear_combination k1 - k2

/-- C110, runs of oblate tops, degenerate modes and the unique axis: with the hypotheses of `c110_run_partial`, let `r` be
reported for one quantum in the degenerate mode `(k, k2)` and `r₀` for a state whose components the angular momentum does not
couple. With the angular momentum `j` about axis `x` the states of definite energy of the mode are `|k⟩ ± i |k2⟩`; they are
split in first order by the Coriolis constant, and their second-order energy exceeds that of `r₀` by `(B - B₀) j²`.
Missing: as in `c110_run_partial`. -/
theorem c110_run_rotating_partial {ι : Type} (s : SpectroIn ℝ) (o : Oracles ℝ ι) (fc2 : Mat ℝ) (f3x : T3 ℝ) (f4x : T4 ℝ)
    (out hout : Output ℝ ι) (hr : s.rotor = .oblateSymmTop) (hn : s.n3n = 3 * s.natom) (hv : s.nvib ≤ s.n3n) (h0 : 0 < s.nvib)
    (h3 : Symm3 s.n3n f3x) (h4 : Symm4 s.n3n f4x)
    (h : run s o (.quartic fc2 f3x f4x) = some out) (hh : run s o (.harmonic fc2) = some hout)
    (κ : ℝ) (hκ : 0 < κ) (hB : ∀ a < 3, s.rotcon a = κ / s.primat a) (hc : out.resonances.coriolis = [])
    (hp : ∀ i < s.nvib, 0 < entryOf hout.harms i) (hw : NoResonance s.nvib (entryOf hout.harms)) :
    let modes := out.resonances.modes
    let w := entryOf hout.harms
    let φ := cubicField s.n3n s.axes f3x w out.lx
    let ψ := quarticField s.n3n s.axes f4x w out.lx
    let ζ := zetaField s.natom out.lxm
    let A := inertiaField s.natom s.pos s.weights out.lxm
    let level := fun (n : Nat → Nat) (J : Nat → ℝ) (e : ℝ) => ∃ E0 E1 E2, e = E0 + E1 + E2 ∧
      RotEnergy κ s.primat A w φ ψ ζ J (fun i : Fin s.nvib => n i) E0 E1 E2
    (modeNumbers modes).Perm (List.range s.nvib) →
    (VibRot.mk s.rotcon s.primat w A ζ φ).Axial modes (fun _ => 1) 1 0 →
    (∀ i j, i < s.nvib → j < s.nvib → i ≠ j → w i = w j → .i2 i j ∈ modes ∨ .i2 j i ∈ modes) →
    ∀ r0 ∈ out.rots, ∀ r ∈ out.rots, ∀ q (h : q < (degPairs modes).length),
      r.state = .i2st ((List.replicate s.nvib (0, 0)).set q (1, 1)) → let k := (degPairs modes)[q].1; let k2 := (degPairs modes)[q].2
      ∀ m m', Components modes r0.state m m' → ∀ x, (x = 1 ∨ x = 2) →
      (∀ k k2, .i2 k k2 ∈ modes → ζ k k2 x = 0 ∨ (m k = 0 ∧ m k2 = 0)) →
      ∀ σ : ℝ, σ ^ 2 = 1 → ∀ j E0 E1 E2 G0 G1 G2 F F' H H',
      RotPairEnergy κ s.primat A w φ ψ ζ (about x j) (fun i : Fin s.nvib => if i = k then 1 else 0)
        (fun i : Fin s.nvib => if i = k2 then 1 else 0) σ E0 E1 E2 →
      RotPairEnergy κ s.primat A w φ ψ ζ (about x 0) (fun i : Fin s.nvib => if i = k then 1 else 0)
        (fun i : Fin s.nvib => if i = k2 then 1 else 0) σ G0 G1 G2 →
      level m (about x j) F → level m' (about x j) F' → level m (about x 0) H → level m' (about x 0) H' →
      E0 = G0 ∧ G1 = 0 ∧ E1 = -(σ * (2 * s.rotcon x * ζ k k2 x)) * j ∧
      (E2 - G2) - ((F - H) + (F' - H')) / 2 =
        (axisConst r x - axisConst r0 x +
          ((roundedPart s.nvib κ s.primat w A φ k x + roundedPart s.nvib κ s.primat w A φ k2 x) / 2 -
            ∑ i ∈ range s.nvib, roundedPart s.nvib κ s.primat w A φ i x * (((m i : ℝ) + m' i) / 2))) * j ^ 2 := by
  intro modes w φ ψ ζ A level hm hD hd
  obtain ⟨w', wila, ζ', φ', ψ', t, R, cw, ca, c3, c4, cz, hD', ht, hst, hq, ha, hro, he⟩ :=
    rovib_run_parts (by rw [hr]; rfl) (by rw [hr]; decide) hn hv h0 h3 h4 h hh hc (by norm_num) (by norm_num) hm hD
  have lt : ∀ k, k ∈ modeNumbers modes → k < s.nvib := fun k hk => List.mem_range.1 (hm.mem_iff.1 hk)
  have l2 : ∀ k k2, .i2 k k2 ∈ modes → k < s.nvib ∧ k2 < s.nvib := fun k k2 hk =>
    ⟨lt k (mem_modeNumbers_pair hk).1, lt k2 (mem_modeNumbers_pair hk).2⟩
  rw [hr] at ha hro hq
  have S4 : Symm4 s.nvib ψ' := by
    have S := quarticField_symm h4 s.axes w out.lx s.nvib
    intro a b c d ha hb hc hd
    rw [c4 a b c d ha hb hc hd, c4 b a c d hb ha hc hd, c4 a c b d ha hc hb hd, c4 a b d c ha hb hd hc]
    exact S a b c d ha hb hc hd
  have pos : ∀ i < s.nvib, 0 < w' i := fun i hi => by rw [cw i hi]; exact hp i hi
  have nr : NoResonance s.nvib w' := fun i j k hi hj hk => by rw [cw i hi, cw j hj, cw k hk]; exact hw i j k hi hj hk
  have hd' : ∀ i j, i < s.nvib → j < s.nvib → i ≠ j → w' i = w' j → .i2 i j ∈ modes ∨ .i2 j i ∈ modes := fun i j hi hj hij e =>
    hd i j hi hj hij (by rw [cw i hi, cw j hj] at e; exact e)
  obtain ⟨R', hR', hv'⟩ := c110_levels_partial .oblateSymmTop (by decide) (by decide) modes s.nvib s.i2vib t ht hm κ s.rotcon
    s.primat w' wila ζ' φ' ψ' hκ hB hD' S4 pos nr hd'
  obtain rfl : R' = R := Option.some.inj (hR'.symm.trans ha)
  obtain ⟨R'', hR'', hrot⟩ := c110_rotating_partial .oblateSymmTop (by decide) (by decide) modes s.nvib s.i2vib t ht hm κ s.rotcon
    s.primat w' wila ζ' φ' ψ' hκ hB hD' S4 pos nr hd'
  obtain rfl : R'' = R' := Option.some.inj (hR''.symm.trans ha)
  obtain ⟨R3, hR3, hav⟩ := c83_averaged .oblateSymmTop (by decide) modes s.nvib s.i2vib t ht s.rotcon s.primat w' wila ζ' φ' []
  obtain rfl : R3 = R'' := Option.some.inj (hR3.symm.trans ha)
  obtain ⟨rs, hrs, hf⟩ := c43_oblate_partial s.nvib t.states.length s.rotcon s.primat w' wila R3 t.states out.quartic le_rfl hq
  obtain rfl : rs = out.rots := Option.some.inj (hrs.symm.trans hro)
  have b01 : s.rotcon 0 = s.rotcon 1 := by
    rw [hB 0 (by norm_num), hB 1 (by norm_num), show s.primat 0 = s.primat 1 from hD.inertia]
  have perp : ∀ u v, (u = 0 ∧ v = 1 ∨ u = 1 ∧ v = 0) → s.rotcon v = s.rotcon 1 := by
    rintro u v (⟨rfl, rfl⟩ | ⟨rfl, rfl⟩)
    · rfl
    · exact b01
  intro r0 hmem0 r hmem q hqd hstate k k2
  obtain ⟨p, hp1, hp2, ⟨u, v, huv, -, pb⟩, pc⟩ := forall₂_mem hf hmem
  obtain ⟨p0, hq1, hq2, ⟨u0, v0, huv0, -, qb⟩, qc⟩ := forall₂_mem hf hmem0
  rw [perp _ _ huv] at pb
  rw [perp _ _ huv0] at qb
  intro m m' hcm x hx hz σ hσ j E0 E1 E2 G0 G1 G2 F F' H H' hE hG hF hF' hH hH'
  have hx3 : x < 3 := by omega
  have conv : ∀ n J e, level n J e → ∃ E0 E1 E2, e = E0 + E1 + E2 ∧
      RotEnergy κ s.primat (fun k a b => wila k (pairIdx a b)) w' φ' ψ' ζ' J (fun i : Fin s.nvib => n i) E0 E1 E2 := by
    rintro n J e ⟨E0, E1, E2, a, b⟩
    exact ⟨E0, E1, E2, a, (rotEnergy_congr cw ca c3 c4 cz).2 b⟩
  have mem : .i2 k k2 ∈ modes := mem_degPairs.1 (List.getElem_mem hqd)
  have zz : ∀ k k2, .i2 k k2 ∈ modes → ζ' k k2 x = ζ k k2 x := fun k k2 hk => cz k k2 x (l2 k k2 hk).1 (l2 k k2 hk).2 hx3
  have e2 := hv' p0.1 p0.2 (reported_get hq1) m m' (by rw [← hq2]; exact hcm) x hx
    (fun k k2 hk => by rw [zz k k2 hk]; exact hz k k2 hk) j F F' H H'
    (conv _ _ _ hF) (conv _ _ _ hF') (conv _ _ _ hH) (conv _ _ _ hH')
  obtain ⟨a1, a2, a3, a4⟩ := hrot q hqd σ hσ x hx j E0 E1 E2 G0 G1 G2 ((rotPairEnergy_congr cw ca c3 c4 cz).2 hE)
    ((rotPairEnergy_congr cw ca c3 c4 cz).2 hG)
  obtain ⟨-, -, st⟩ := states_first ht
  rw [part_nonDeg, part_degPairs] at st
  have same : R3 ((nonDeg modes).length + q + 1) x = R3 p.1 x := by
    obtain ⟨u1, u2, -⟩ := hav _ _ (st q hqd).1
    obtain ⟨v1, v2, -⟩ := hav p.1 p.2 (reported_get hp1)
    rw [← hp2, hstate] at v1 v2
    rcases hx with rfl | rfl
    · rw [u1, v1]
    · rw [u2, v2]
  have hax : axisConst r x - axisConst r0 x = R3 p.1 x - R3 p0.1 x := by
    unfold axisConst
    rcases hx with rfl | rfl
    · rw [if_neg (by norm_num), if_pos rfl, if_neg (by norm_num), if_pos rfl, pb, qb]; ring
    · rw [if_neg (by norm_num), if_neg (by norm_num), if_neg (by norm_num), if_neg (by norm_num), pc, qc]; ring
  have rc : ∀ i, i < s.nvib → roundedPart s.nvib κ s.primat w A φ i x =
      roundedPart s.nvib κ s.primat w' (fun k a b => wila k (pairIdx a b)) φ' i x := fun i hi =>
    (roundedPart_congr cw ca c3 hi hx3).symm
  have rp : ∑ i ∈ range s.nvib, roundedPart s.nvib κ s.primat w A φ i x * (((m i : ℝ) + m' i) / 2) =
      ∑ i ∈ range s.nvib, roundedPart s.nvib κ s.primat w' (fun k a b => wila k (pairIdx a b)) φ' i x *
        (((m i : ℝ) + m' i) / 2 + 1 / 2) -
      ∑ i ∈ range s.nvib, roundedPart s.nvib κ s.primat w' (fun k a b => wila k (pairIdx a b)) φ' i x / 2 := by
    rw [← sum_sub_distrib]
    refine sum_congr rfl fun i hi => ?_
    rw [rc i (mem_range.1 hi)]
    ring
  refine ⟨a1, a2, ?_, ?_⟩
  · rw [a3, hB x hx3]
    show -(σ * (2 * (κ / s.primat x) * ζ' k k2 x)) * j = _
    rw [zz k k2 mem]
  · rw [hax, rp, rc k (l2 k k2 mem).1, rc k2 (l2 k k2 mem).2, ← same]
    linear_combination a4 - e2

/-! ### An example: two perpendicular motions of one atom and a motion of another along the axis -/

noncomputable section

/-- Frequencies of the example. -/
def rndFreq : Vec ℝ := fun i => if i = 2 then 800 else 900

/-- Coriolis constants of the example: only the degenerate mode has one, about the unique axis. -/
def rndZeta (e : ℝ) : T3 ℝ := fun i j x => if x = 2 then (if i = 0 ∧ j = 1 then e else if i = 1 ∧ j = 0 then -e else 0) else 0

/-- Inertia derivatives of the example: mode 2 stretches the molecule along its axis. -/
def rndA (b : ℝ) : T3 ℝ := fun k x y => if k = 2 ∧ x = y ∧ x < 2 then b else 0

/-- Cubic constants of the example. -/
def rndF3 (f : ℝ) : T3 ℝ := fun i j k => if i = 2 ∧ j = 2 ∧ k = 2 then f else 0

/-- Quartic constants of the example. -/
def rndF4 (f : ℝ) : T4 ℝ := fun i j k l => if i = 2 ∧ j = 2 ∧ k = 2 ∧ l = 2 then f else 0

def rndOdd (i : Nat) : ZMod 2 := if i = 1 then 1 else 0

theorem rndZeta_anti (e : ℝ) (i j x : Nat) : rndZeta e i j x = -rndZeta e j i x := by
  unfold rndZeta
  split_ifs <;> first | omega | simp

theorem rndFreq_pos (i : Nat) : 0 < rndFreq i := by
  unfold rndFreq
  split_ifs <;> norm_num

theorem rndFreq_noRes : NoResonance 3 rndFreq := by
  intro i j k _ _ _
  unfold rndFreq
  constructor <;> split_ifs <;> norm_num

theorem rndFreq_alone (m : Fin 3 → Nat) (h : level rndFreq (toInt m) = level rndFreq (unit (0 : Fin 3))) :
    toInt m = unit 0 ∨ toInt m = unit 1 := by
  unfold level at h
  simp only [Fin.sum_univ_three, toInt, rndFreq, unit] at h
  norm_num [Pi.single_apply] at h
  rw [if_neg (by decide)] at h
  have h' : 9 * (m 0 + m 1) + 8 * m 2 = 9 := by
    have : (9 * ((m 0 : ℝ) + m 1) + 8 * (m 2 : ℝ)) = 9 := by linarith
    exact_mod_cast this
  have h0 : m 2 = 0 := by omega
  rcases (by omega : m 0 = 1 ∧ m 1 = 0 ∨ m 0 = 0 ∧ m 1 = 1) with ⟨h1, h2⟩ | ⟨h1, h2⟩
  · left
    funext i
    fin_cases i <;> simp [toInt, unit, h0, h1, h2]
  · right
    funext i
    fin_cases i <;> simp [toInt, unit, h0, h1, h2]

theorem rnd_mirror (κ : ℝ) (I : Nat → ℝ) (e b f g : ℝ) (x : Nat) (hx : x < 3) (j : ℝ) :
    Mirror (N := 3) rndFreq (rndF3 f)
      (fun k => ∑ a ∈ range 3, ∑ c ∈ range 3, recip1 κ I rndFreq (rndA b) a c k * about x j a * about x j c) (rndZeta e)
      (fun a => 2 * (κ / I a) * about x j a)
      (fun p => quartic (rndF4 g) p + Osc.coriolis rndFreq (rndZeta e) (fun a => κ / I a) p +
        (∑ a ∈ range 3, κ / I a * about x j a ^ 2) • p +
        quadratic (fun k l => ∑ a ∈ range 3, ∑ c ∈ range 3,
          recip2 κ I rndFreq (rndA b) a c k l * about x j a * about x j c) p)
      (fun p => ∑ c ∈ range 3, linear (fun k => 2 * ∑ a ∈ range 3, recip1 κ I rndFreq (rndA b) a c k * about x j a)
        (angular rndFreq (rndZeta e) c p))
      (fun i => rndOdd i) 1 0 1 := by
  have z : ∀ i j a, rndZeta e i j a ≠ 0 → rndOdd i + rndOdd j = 1 := by
    intro i j a h
    unfold rndZeta at h
    split_ifs at h with h1 h2 h3
    · rw [h2.1, h2.2]; decide
    · rw [h3.1, h3.2]; decide
    · exact absurd rfl h
    · exact absurd rfl h
  have A2 : ∀ i x y, rndA b i x y ≠ 0 → i = 2 := by
    intro i x y h
    by_contra hi
    exact h (if_neg fun h => hi h.1)
  refine mirror_of (o := rndOdd) (t := 1) (ta := fun _ => 1) (k := 0) (k2 := 1) (by norm_num) (by norm_num)
    (fun i _ => rndFreq_pos i) rndFreq_noRes (by norm_num) rfl ?_ rndFreq_alone (fun a k l _ _ => rndZeta_anti e k l a)
    (by decide) ?_ ?_ (fun i j a _ h => z i j a h) ?_ ?_ ?_
  · intro i hi h
    interval_cases i <;> norm_num [rndFreq] at h <;> simp
  · intro i j l h
    unfold rndF3 at h
    split_ifs at h with h1
    · rw [h1.1, h1.2.1, h1.2.2]; decide
    · exact absurd rfl h
  · intro i j l m h
    unfold rndF4 at h
    split_ifs at h with h1
    · rw [h1.1, h1.2.1, h1.2.2.1, h1.2.2.2]; decide
    · exact absurd rfl h
  · intro i h
    rw [about_sum _ _ hx] at h
    have h := left_ne_zero_of_mul h
    unfold recip1 at h
    have h := left_ne_zero_of_mul h
    have : i = 2 := by
      by_contra hi
      apply h
      simp [rndA, hi]
    rw [this]; decide
  · intro i l h
    rw [about_sum _ _ hx] at h
    have h := left_ne_zero_of_mul h
    unfold recip2 at h
    have h := right_ne_zero_of_mul (left_ne_zero_of_mul h)
    have : i = 2 ∧ l = 2 := by
      by_contra hc
      apply h
      refine sum_eq_zero fun y _ => ?_
      rcases not_and_or.1 hc with h0 | h0 <;> simp [rndA, h0]
    rw [this.1, this.2]; decide
  · intro i l h
    obtain ⟨a, -, h⟩ := exists_ne_zero_of_sum_ne_zero h
    exact z i l a (right_ne_zero_of_mul h)

/-- The components of the degenerate mode have energies if the angular momentum does not couple them. -/
theorem rnd_comp (κ : ℝ) (I : Nat → ℝ) (e b f g : ℝ) (j : ℝ) (k : Fin 3) (hk : k = 0 ∨ k = 1) :
    ∃ E0 E1 E2, RotEnergy κ I (rndA b) rndFreq (rndF3 f) (rndF4 g) (rndZeta e) (about 1 j) (fun i : Fin 3 => Osc.single k i) E0 E1 E2 := by
  have M := rnd_mirror κ I e b f g 1 (by norm_num) j
  have zs : ∀ k l, ∑ a ∈ range 3, 2 * (κ / I a) * about 1 j a * rndZeta e k l a = 0 := by
    intro k l
    refine sum_eq_zero fun a _ => ?_
    by_cases ha : a = 1
    · rw [ha, show rndZeta e k l 1 = 0 from if_neg (by norm_num), mul_zero]
    · rw [show about 1 j a = 0 from if_neg ha, mul_zero, zero_mul]
  rcases hk with rfl | rfl
  · exact M.comp_exists (single_unit 0) (zs _ _)
  · exact M.swap.comp_exists (single_unit 1) (zs _ _)

/-- The ground state has an energy. -/
theorem rnd_ground (κ : ℝ) (I : Nat → ℝ) (e b f g : ℝ) (x : Nat) (j : ℝ) :
    ∃ E0 E1 E2, RotEnergy κ I (rndA b) rndFreq (rndF3 f) (rndF4 g) (rndZeta e) (about x j)
      (fun i : Fin 3 => (fun _ => 0) (i : Nat)) E0 E1 E2 := by
  refine second_exists rndFreq_noRes.fin (fun i => rndFreq_pos i) (fun i j _ => .inr (.inr ⟨rfl, rfl⟩))
    (fun a k l => rndZeta_anti e k l a) (fun m hm e => hm ?_) ?_
  · unfold level at e
    simp only [Fin.sum_univ_three, toInt, rndFreq] at e
    norm_num at e
    have h' : 9 * (m 0 + m 1) + 8 * m 2 = 0 := by
      have : (9 * ((m 0 : ℝ) + m 1) + 8 * (m 2 : ℝ)) = 0 := by linarith
      exact_mod_cast this
    funext i
    fin_cases i <;> simp <;> omega
  · rw [amp_sum, Finset.sum_apply]
    refine sum_eq_zero fun b _ => ?_
    rw [amp_linear, amp_angular, amp_oscState, lin_ang_diag]

def rndI : Vec ℝ := fun a => if a = 2 then 8 else 4

theorem rndF3_symm (f : ℝ) (i j k : Nat) : rndF3 f i j k = rndF3 f j i k ∧ rndF3 f i j k = rndF3 f i k j := by
  unfold rndF3
  constructor <;> (congr 1; simp only [eq_iff_iff]; tauto)

theorem rndF4_symm (f : ℝ) : Symm4 3 (rndF4 f) := by
  intro a b c d _ _ _ _
  unfold rndF4
  refine ⟨?_, ?_, ?_⟩ <;> (congr 1; simp only [eq_iff_iff]; tauto)

theorem rndA_symm (b : ℝ) (k x y : Nat) : rndA b k x y = rndA b k y x := by
  unfold rndA
  congr 1
  simp only [eq_iff_iff]
  constructor <;> (rintro ⟨h, rfl, h'⟩; exact ⟨h, rfl, h'⟩)

theorem rnd_equal (e b f g j : ℝ) :
    rotForm 3 16 rndI (rndA b) rndFreq (rndF3 f) (rndF4 g) (rndZeta e) (about 2 j) (Osc.single 0) =
      rotForm 3 16 rndI (rndA b) rndFreq (rndF3 f) (rndF4 g) (rndZeta e) (about 2 j) (Osc.single 1) := by
  have d : ∀ n, rotSecond 3 16 rndI (rndA b) rndFreq (rndF3 f) (rndZeta e) n 2 2 = _ := fun n =>
    rotSecond_diag (by norm_num) (fun i _ => rndFreq_pos i) (rndA_symm b) n 2
  have a12 : alphaSpec (fun _ _ _ => False) 3 (fun a => 16 / rndI a) rndI rndFreq (rndA b) (rndZeta e) (rndF3 f) 0 2 =
      alphaSpec (fun _ _ _ => False) 3 (fun a => 16 / rndI a) rndI rndFreq (rndA b) (rndZeta e) (rndF3 f) 1 2 := by
    unfold alphaSpec
    rw [show (range 3).erase 0 = {1, 2} by decide, show (range 3).erase 1 = {0, 2} by decide]
    norm_num [sum_range_succ, rndA, rndZeta, rndFreq, rndF3, rndI, rotationTerm]
  have r12 : roundedPart 3 16 rndI rndFreq (rndA b) (rndF3 f) 0 2 = roundedPart 3 16 rndI rndFreq (rndA b) (rndF3 f) 1 2 := by
    unfold roundedPart
    norm_num [sum_range_succ, rndA, rndFreq, rndF3, rndI]
  have x11 : xSpec (fun _ _ _ => False) 3 rndFreq (rndF3 f) (rndF4 g) (rndZeta e) (fun a => 16 / rndI a) 0 0 =
      xSpec (fun _ _ _ => False) 3 rndFreq (rndF3 f) (rndF4 g) (rndZeta e) (fun a => 16 / rndI a) 1 1 := by
    unfold xSpec
    rw [if_pos rfl, if_pos rfl]
    unfold xkkSpec
    norm_num [sum_range_succ, rndFreq, rndF3, rndF4]
  have x10 : xSpec (fun _ _ _ => False) 3 rndFreq (rndF3 f) (rndF4 g) (rndZeta e) (fun a => 16 / rndI a) 2 0 =
      xSpec (fun _ _ _ => False) 3 rndFreq (rndF3 f) (rndF4 g) (rndZeta e) (fun a => 16 / rndI a) 2 1 := by
    unfold xSpec
    rw [if_neg (by norm_num), if_neg (by norm_num)]
    unfold xklSpec
    norm_num [sum_range_succ, rndFreq, rndF3, rndF4, rndZeta, rndI]
  unfold rotForm
  rw [about_sum _ _ (by norm_num), about_sum _ _ (by norm_num), d, d]
  simp only [sum_range_succ, range_zero, sum_empty, zero_add, Osc.single]
  norm_num
  rw [a12, r12, x11, x10]
  ring

/-- The rotating states of the degenerate mode have energies. -/
theorem rnd_pair (e b f g j σ : ℝ) (hσ : σ ^ 2 = 1) :
    ∃ E0 E1 E2, RotPairEnergy 16 rndI (rndA b) rndFreq (rndF3 f) (rndF4 g) (rndZeta e) (about 2 j)
      (fun i : Fin 3 => Osc.single 0 i) (fun i : Fin 3 => Osc.single 1 i) σ E0 E1 E2 :=
  (rnd_mirror 16 rndI e b f g 2 (by norm_num) j).pair_exists (single_unit 0) (single_unit 1) (σ := σ) (.inl hσ) (.inr (by
    have h3 : Symm3 3 (rndF3 f) := fun i j k _ _ _ => rndF3_symm f i j k
    have hz : ∀ a k l, k < 3 → l < 3 → rndZeta e k l a = -rndZeta e l k a := fun a k l _ _ => rndZeta_anti e k l a
    have r1 := rot_value (κ := 16) (I := rndI) (A := rndA b) (by norm_num) h3 (rndF4_symm g) hz
      (fun i _ => rndFreq_pos i) (about 2 j) (Osc.single 0)
    have r2 := rot_value (κ := 16) (I := rndI) (A := rndA b) (by norm_num) h3 (rndF4_symm g) hz
      (fun i _ => rndFreq_pos i) (about 2 j) (Osc.single 1)
    exact r1.trans ((rnd_equal e b f g j).trans r2.symm)))

/-- The example has the symmetry of an axis. -/
theorem rnd_axial (B I : Vec ℝ) (hI : I 0 = I 1) (e b f : ℝ) :
    (VibRot.mk B I rndFreq (rndA b) (rndZeta e) (rndF3 f)).Axial [.i2 0 1, .i1 2] (fun _ => 1) 1 0 where
  inertia := hI
  anti := fun i j x => rndZeta_anti e i j x
  cubic := rndF3_symm f
  tensor := rndA_symm b
  single := by
    intro k hk
    simp at hk
    subst hk
    norm_num [rndA]
  singles := by
    intro k j hk hj
    simp [rndZeta]
  pair := by
    intro k k2 hk
    simp at hk
    obtain ⟨rfl, rfl⟩ := hk
    norm_num [rndA, rndFreq]
  mixed := by
    intro j k k2 hj hk
    simp at hk hj
    obtain ⟨rfl, rfl⟩ := hk
    subst hj
    norm_num [rndZeta, rndF3]
  pairs := by
    intro k k2 j j2 hk hj hne
    simp at hk hj
    obtain ⟨rfl, rfl⟩ := hk
    obtain ⟨rfl, rfl⟩ := hj
    exact absurd rfl hne
  cubics := by
    intro k k2 j j2 hk hj
    simp at hk hj
    obtain ⟨rfl, rfl⟩ := hk
    obtain ⟨rfl, rfl⟩ := hj
    norm_num [rndF3]

/-- A cubic force constant of the second atom along the axis. -/
def rndOne3 : T3 ℝ := fun i j k => if i = 5 ∧ j = 5 ∧ k = 5 then 1 else 0

/-- A quartic force constant of the second atom along the axis. -/
def rndOne4 : T4 ℝ := fun i j k l => if i = 5 ∧ j = 5 ∧ k = 5 ∧ l = 5 then 1 else 0

/-- The molecule: three atoms on the z axis. -/
def rndMol (lin : Bool) : SpectroIn ℝ :=
  { exampleLine with nvib := 3, i2vib := 6, rotor := if lin then .linear else .oblateSymmTop, linear := lin, axisOrder := 3
                     buddy := some 1, primat := rndI, rotcon := fun a => 16 / rndI a }

/-- The third mode is the motion of the second atom along the axis. -/
def rndPerm (i : Nat) : Nat := if i = 2 then 5 else if i = 5 then 2 else i

theorem reported_mem {P : State → Bool} {n : Nat} {states : List State} {k : Nat} {st : State}
    (h : states[k]? = some st) (hk : k < n) (hP : P st = true) : (k, st) ∈ reported P n states := by
  unfold reported
  refine List.mem_filter.2 ⟨List.mem_filterMap.2 ⟨k, List.mem_range.2 hk, by rw [h]; rfl⟩, hP⟩

/-- The force constants of second order: the first atom is bound across the axis, the second along it. -/
noncomputable def rndHess : Mat ℝ := diagHessian fun r => coreLevels (rndPerm r)

/-- A run of the molecule. -/
theorem rnd_run (lin : Bool) : ∃ (out hout : Output ℝ Nat) (e b f g : ℝ),
    let s := rndMol lin
    let f3x : T3 ℝ := rndOne3
    let f4x : T4 ℝ := rndOne4
    Symm3 9 f3x ∧ Symm4 9 f4x ∧
    run s (turnedOracles 9 rndPerm (3 / 5) (4 / 5)) (.quartic rndHess f3x f4x) = some out ∧
    run s (turnedOracles 9 rndPerm (3 / 5) (4 / 5)) (.harmonic rndHess) = some hout ∧ out.lx = hout.lx ∧ out.lxm = hout.lxm ∧
    (∀ i < 3, ∃ e : ℝ, (e = 1 ∨ e = -1) ∧ ∀ r < 9, columnEntry hout.lx i r = if r = rndPerm i then e else 0) ∧
    out.resonances.coriolis = [] ∧ out.resonances.modes = [.i2 0 1, .i1 2] ∧ e ^ 2 = 1 ∧ b ^ 2 = 4 ∧ f ≠ 0 ∧
    (∀ i < 3, entryOf hout.harms i = rndFreq i) ∧
    (∀ k x y, k < 3 → x < 3 → y < 3 → inertiaField 3 s.pos s.weights out.lxm k x y = rndA b k x y) ∧
    (∀ i j k, i < 3 → j < 3 → k < 3 → cubicField 9 s.axes f3x (entryOf hout.harms) out.lx i j k = rndF3 f i j k) ∧
    (∀ i j k l, i < 3 → j < 3 → k < 3 → l < 3 →
      quarticField 9 s.axes f4x (entryOf hout.harms) out.lx i j k l = rndF4 g i j k l) ∧
    (∀ i j x, i < 3 → j < 3 → x < 3 → zetaField 3 out.lxm i j x = rndZeta e i j x) ∧
    (∃ r0 ∈ out.rots, r0.state = .i1st [0, 0, 0]) ∧ ∃ r ∈ out.rots, r.state = .i2st [(1, 1), (0, 0), (0, 0)] := by
  have hp : ∀ i < 9, rndPerm i < 9 := fun i hi => by unfold rndPerm; split_ifs <;> omega
  have hpp : ∀ i, rndPerm (rndPerm i) = i := fun i => by unfold rndPerm; split_ifs <;> omega
  have rot : (rndMol lin).rotor = .linear ∨ (rndMol lin).rotor = .oblateSymmTop := by cases lin <;> simp [rndMol]
  obtain ⟨out, hout, h, hh, el, -, har, -, hcol⟩ := core_facts (n := 9) (p := rndPerm) (c := 3 / 5) (t := 4 / 5) hp hpp
    (by norm_num) (by omega) (rndMol lin) rfl rfl rfl rfl (by rcases rot with h | h <;> rw [h] <;> simp [axialTop])
    (by decide : 2 ≤ 3) (by decide : 3 ≤ 3) (by decide : 3 ≤ 9) (by show (6 : Nat) = 3 * (3 + 1) / 2; norm_num) (.inr rfl) rfl rfl (by norm_num) rndOne3 rndOne4
  have el' : out.lx = hout.lx := (c57_same _ _ _ _ _ hout out hh h).2.2.1
  have hw : ∀ i < 3, entryOf hout.harms i = rndFreq i := by
    intro i hi
    rw [har i hi]
    interval_cases i <;> norm_num [coreLevels, rndFreq]
  have hS3 : Symm3 9 (rndOne3) := by
    intro a b c _ _ _
    unfold rndOne3
    constructor <;> (congr 1; simp only [eq_iff_iff]; tauto)
  have hS4 : Symm4 9 (rndOne4) := by
    intro a b c d _ _ _ _
    unfold rndOne4
    refine ⟨?_, ?_, ?_⟩ <;> (congr 1; simp only [eq_iff_iff]; tauto)
  choose! e he hc using hcol
  have he : ∀ i < 3, e i = 1 ∨ e i = -1 := he
  have hc' : ∀ i < 3, ∀ r < 9, columnEntry out.lxm i r = (if r = rndPerm i then e i else 0) ∧
      columnEntry out.lx i r = if r = rndPerm i then e i else 0 := by rw [el, el']; exact hc
  have sq1 : ∀ i < 3, e i ^ 2 = 1 := fun i hi => by rcases he i hi with h | h <;> rw [h] <;> norm_num
  have pz : ∀ i j x, i < 3 → j < 3 → x < 3 → zetaField 3 out.lxm i j x = rndZeta (e 0 * e 1) i j x := by
    intro i j a hi hj ha
    unfold zetaField angularForm
    have q : ∀ k < 3, ∀ r, r < 9 → columnEntry out.lxm k r = if r = rndPerm k then e k else 0 := fun k hk r hr => (hc' k hk r hr).1
    simp only [sum_range_succ, sum_range_zero]
    rw [q i hi _ (by omega), q i hi _ (by omega), q i hi _ (by omega), q i hi _ (by omega), q i hi _ (by omega), q i hi _ (by omega),
      q j hj _ (by omega), q j hj _ (by omega), q j hj _ (by omega), q j hj _ (by omega), q j hj _ (by omega), q j hj _ (by omega)]
    interval_cases i <;> interval_cases j <;> interval_cases a <;> simp [rndZeta, rndPerm]
    all_goals try ring
  have pa : ∀ k x y, k < 3 → x < 3 → y < 3 →
      inertiaField 3 (rndMol lin).pos (rndMol lin).weights out.lxm k x y = rndA (2 * e 2) k x y := by
    intro k x y hk hx hy
    have q : ∀ r, r < 9 → columnEntry out.lxm k r = if r = rndPerm k then e k else 0 := fun r hr => (hc' k hk r hr).1
    have pos : ∀ a x, (rndMol lin).pos a x = if x = 2 then (a : ℝ) else 0 := fun a x => rfl
    have wt : ∀ a, (rndMol lin).weights a = 1 := fun a => rfl
    unfold inertiaField
    simp only [pos, wt, Real.sqrt_one, one_mul]
    by_cases hxy : x = y
    · subst hxy
      rw [if_pos rfl, sum_range_succ, sum_range_succ, sum_range_succ, sum_range_zero]
      have s : ∀ a : Nat, a < 3 → ∑ z ∈ (range 3).erase x, (if z = 2 then (a : ℝ) else 0) * columnEntry out.lxm k (3 * a + z) =
          if x = 2 then 0 else a * columnEntry out.lxm k (3 * a + 2) := by
        intro a ha
        interval_cases x
        · rw [show (range 3).erase 0 = {1, 2} by decide]; simp
        · rw [show (range 3).erase 1 = {0, 2} by decide]; simp
        · rw [show (range 3).erase 2 = {0, 1} by decide]; simp
      rw [s 0 (by omega), s 1 (by omega), s 2 (by omega), q _ (by omega), q _ (by omega), q _ (by omega)]
      interval_cases k <;> interval_cases x <;> norm_num [rndA, rndPerm]
    · rw [if_neg hxy, sum_eq_zero fun a _ => by rw [if_neg (show ¬ min x y = 2 by omega), zero_mul]]
      rw [mul_zero, neg_zero, rndA, if_neg fun h => hxy h.2.1]
  have hax : (rndMol lin).axes = idAxes := rfl
  have c2 : ∀ i < 3, applyAxes idAxes (columnEntry out.lx i) 5 = if i = 2 then e i else 0 := by
    intro i hi
    rw [applyAxes_id, (hc' i hi 5 (by omega)).2]
    interval_cases i <;> simp [rndPerm]
  have g3 : ∀ u v t : Nat → ℝ, form3 9 (rndOne3) u v t = u 5 * v 5 * t 5 := by
    intro u v t
    unfold form3
    rw [sum_eq_single 5 (fun i _ hi => sum_eq_zero fun j _ => sum_eq_zero fun k _ => by simp [rndOne3, hi]) (by simp),
      sum_eq_single 5 (fun j _ hj => sum_eq_zero fun k _ => by simp [rndOne3, hj]) (by simp),
      sum_eq_single 5 (fun k _ hk => by simp [rndOne3, hk]) (by simp)]
    simp [rndOne3]
  have g4 : ∀ u v t r : Nat → ℝ, form4 9 (rndOne4) u v t r = u 5 * v 5 * t 5 * r 5 := by
    intro u v t r
    unfold form4
    rw [sum_eq_single 5 (fun i _ hi => sum_eq_zero fun j _ => sum_eq_zero fun k _ => sum_eq_zero fun l _ => by simp [rndOne4, hi])
      (by simp), sum_eq_single 5 (fun j _ hj => sum_eq_zero fun k _ => sum_eq_zero fun l _ => by simp [rndOne4, hj]) (by simp),
      sum_eq_single 5 (fun k _ hk => sum_eq_zero fun l _ => by simp [rndOne4, hk]) (by simp),
      sum_eq_single 5 (fun l _ hl => by simp [rndOne4, hl]) (by simp)]
    simp [rndOne4]
  have p3 : ∀ i j k, i < 3 → j < 3 → k < 3 → cubicField 9 (rndMol lin).axes (rndOne3) (entryOf hout.harms) out.lx i j k =
      rndF3 (cubicField 9 (rndMol lin).axes (rndOne3) (entryOf hout.harms) out.lx 2 2 2) i j k := by
    intro i j k hi hj hk
    unfold rndF3
    split_ifs with hall
    · rw [hall.1, hall.2.1, hall.2.2]
    · rw [cubicField, g3, hax, c2 i hi, c2 j hj, c2 k hk]
      by_cases h1 : i = 2 <;> by_cases h2 : j = 2 <;> by_cases h3 : k = 2 <;> simp [h1, h2, h3] <;> exact absurd ⟨h1, h2, h3⟩ hall
  have p4 : ∀ i j k l, i < 3 → j < 3 → k < 3 → l < 3 →
      quarticField 9 (rndMol lin).axes (rndOne4) (entryOf hout.harms) out.lx i j k l =
      rndF4 (quarticField 9 (rndMol lin).axes (rndOne4) (entryOf hout.harms) out.lx 2 2 2 2) i j k l := by
    intro i j k l hi hj hk hl
    unfold rndF4
    split_ifs with hall
    · rw [hall.1, hall.2.1, hall.2.2.1, hall.2.2.2]
    · rw [quarticField, g4, hax, c2 i hi, c2 j hj, c2 k hk, c2 l hl]
      by_cases h1 : i = 2 <;> by_cases h2 : j = 2 <;> by_cases h3 : k = 2 <;> by_cases h4 : l = 2 <;>
        simp [h1, h2, h3, h4] <;> exact absurd ⟨h1, h2, h3, h4⟩ hall
  have f0 : cubicField 9 (rndMol lin).axes (rndOne3) (entryOf hout.harms) out.lx 2 2 2 ≠ 0 := by
    rw [cubicField, g3, hax, c2 2 (by omega), hw 2 (by omega)]
    have e2 : e 2 ≠ 0 := by rcases he 2 (by omega) with h | h <;> rw [h] <;> norm_num
    have : (0 : ℝ) < cubicUnit := by unfold cubicUnit; norm_num
    simp only [if_true]
    have r2 : (0 : ℝ) < rndFreq 2 := rndFreq_pos 2
    positivity
  obtain ⟨m, F4, hm, hF, hfin⟩ := run_quartic h
  obtain ⟨m', hm', -, -, -, hfr⟩ := harmonic_facts hh
  obtain rfl : m = m' := Option.some.inj (hm.symm.trans hm')
  have hs : (rndMol lin).rotor.isSymTop = true := by rcases rot with h | h <;> rw [h] <;> rfl
  have hs' : (rndMol lin).rotor ≠ .sphericalTop := by rcases rot with h | h <;> rw [h] <;> decide
  obtain ⟨R, hq, ha, hro⟩ := finish_rots hs hs' hfin
  obtain ⟨r, x, hf, zc, v, v', hr, hx, hff, -, hvec, hvec', -, hfu, -, -, -, -, e1, e2, -, rfl⟩ := finish_parts hfin
  rw [← e1] at hvec
  rw [← e2] at hvec'
  obtain ⟨-, -, cz, -⟩ := field_parts (s := rndMol lin) rfl (by decide : 3 ≤ 9) (by decide : 0 < 3) hS3 hS4 hF hvec hvec' hfr
  have hcor : coriolis (rndMol lin).rotor out.resonances.modes (vecOf m.freq) (makeZmat 3 3 m.lxm) = some out.resonances.coriolis := by
    unfold reststNew at hr
    simp only [Option.bind_eq_bind, Option.bind_eq_some_iff] at hr
    obtain ⟨cor, hcor, f1, hf1, f2, hf2, dd, -, t, ht, hr⟩ := hr
    rw [← Option.some.inj hr]
    exact hcor
  obtain ⟨t, ht, hmd, hst, -⟩ := restst_parts hr
  have v0 : vecOf m.freq 0 = 900 := (hfr 0 (by decide : 0 < 3)).trans ((hw 0 (by omega)).trans (by norm_num [rndFreq]))
  have v1 : vecOf m.freq 1 = 900 := (hfr 1 (by decide : 1 < 3)).trans ((hw 1 (by omega)).trans (by norm_num [rndFreq]))
  have v2 : vecOf m.freq 2 = 800 := (hfr 2 (by decide : 2 < 3)).trans ((hw 2 (by omega)).trans (by norm_num [rndFreq]))
  have hmodes : out.resonances.modes = [.i2 0 1, .i1 2] := by
    rw [hmd]
    have ht : degTriples 3 (vecOf m.freq) = [] := by
      have e : incTriples 3 = [(0, 1, 2)] := rfl
      rw [degTriples, e]
      norm_num [close, DEG_TOL, lt_real, abs_real, lit_real, List.filter_cons, v0, v1, v2]
    have hp : degDoubles 3 (vecOf m.freq) = [(0, 1)] := by
      have e : incPairs 3 = [(0, 1), (0, 2), (1, 2)] := rfl
      rw [degDoubles, e, ht]
      norm_num [close, DEG_TOL, lt_real, abs_real, lit_real, List.filter_cons, inTriples, v0, v1, v2]
    show degModes (rndMol lin).rotor 3 (vecOf m.freq) = _
    rcases rot with h | h <;> rw [h, degModes, ht, hp] <;> rfl
  have hc0 : out.resonances.coriolis = [] := by
    rw [hmodes] at hcor
    have zz : ∀ i j x, i < 3 → j < 3 → x < 3 → makeZmat 3 3 m.lxm i j x = rndZeta (e 0 * e 1) i j x := fun i j x hi hj hx =>
      (cz i j x hi hj hx).trans (pz i j x hi hj hx)
    have ct : ∀ i j x ax, i < 3 → j < 3 → x < 2 → corTest (vecOf m.freq) (makeZmat 3 3 m.lxm) i j x ax = [] := by
      intro i j x ax hi hj hx
      unfold corTest
      rw [zz i j x hi hj (by omega), show rndZeta (e 0 * e 1) i j x = 0 from if_neg (by omega), if_neg]
      norm_num [ZTOL, le_real, abs_real, lit_real]
    have key : ∀ rr, coriolisSym rr (Mode.partition [.i2 0 1, .i1 2]).1 (Mode.partition [.i2 0 1, .i1 2]).2.1 (vecOf m.freq)
        (makeZmat 3 3 m.lxm) = [] := by
      intro rr
      have q1 : (Mode.partition [.i2 0 1, .i1 2]).1 = [2] := rfl
      have q2 : (Mode.partition [.i2 0 1, .i1 2]).2.1 = [(0, 1)] := rfl
      rw [q1, q2]
      unfold coriolisSym
      simp [ct, List.range_succ]
    rcases rot with h | h <;> rw [h] at hcor <;> exact (Option.some.inj hcor).symm.trans (key _)
  refine ⟨out, hout, e 0 * e 1, 2 * e 2, _, _, hS3, hS4, h, hh, el', el, fun i hi => ⟨e i, he i hi, fun r hr => (hc i hi r hr).2⟩, hc0, hmodes, ?_, ?_, f0, hw, pa, p3, p4, pz, ?_⟩
  · rw [mul_pow, sq1 0 (by omega), sq1 1 (by omega), one_mul]
  · rw [mul_pow, sq1 2 (by omega)]; norm_num
  · rw [hst, rots_eq _ _ _ _ _ _ le_rfl] at hro
    obtain ⟨t0, -, t2⟩ := states_first ht
    rw [hmodes] at t2
    have s0 := t0
    have s2 := (t2 0 (by decide)).1
    have l0 := (List.getElem?_eq_some_iff.1 s0).1
    have l2 := (List.getElem?_eq_some_iff.1 s2).1
    rw [← Option.some.inj hro]
    exact ⟨⟨_, List.mem_map.2 ⟨_, reported_mem s0 l0 (by show groundOrFund (.i1st [0, 0, 0]) = true; decide), rfl⟩, rfl⟩,
      ⟨_, List.mem_map.2 ⟨_, reported_mem s2 l2 (by show groundOrFund (.i2st [(1, 1), (0, 0), (0, 0)]) = true; decide), rfl⟩, rfl⟩⟩

theorem rnd_fields {lin : Bool} {f3x : T3 ℝ} {w : Nat → ℝ} {out : Output ℝ Nat} {e b f : ℝ}
    (h3 : Symm3 9 f3x) (hw : ∀ i < 3, w i = rndFreq i)
    (ha : ∀ k x y, k < 3 → x < 3 → y < 3 → inertiaField 3 (rndMol lin).pos (rndMol lin).weights out.lxm k x y = rndA b k x y)
    (hf : ∀ i j k, i < 3 → j < 3 → k < 3 → cubicField 9 (rndMol lin).axes f3x w out.lx i j k = rndF3 f i j k)
    (hz : ∀ i j x, i < 3 → j < 3 → x < 3 → zetaField 3 out.lxm i j x = rndZeta e i j x) :
    (VibRot.mk (rndMol lin).rotcon (rndMol lin).primat w (inertiaField 3 (rndMol lin).pos (rndMol lin).weights out.lxm)
      (zetaField 3 out.lxm) (cubicField 9 (rndMol lin).axes f3x w out.lx)).Axial [.i2 0 1, .i1 2] (fun _ => 1) 1 0 := by
  refine axial_congr (N := 3) (by norm_num) (by norm_num) (fun k hk => ?_) ?_ ?_ ?_ ?_ ?_ (zetaField_anti _ _) (fun i j k => ?_)
    (fun i x y => inertiaField_symm _ _ _ _ _ _ _) (rnd_axial (rndMol lin).rotcon (rndMol lin).primat rfl e b f)
  · exact List.mem_range.1 ((by decide : (modeNumbers [.i2 0 1, .i1 2]).Perm (List.range 3)).mem_iff.1 hk)
  · rfl
  · exact hw
  · exact ha
  · exact hz
  · exact hf
  · exact cubicField_symm h3 _ _ _ (i + j + k + 1) i j k (by omega) (by omega) (by omega)

theorem rnd_partner {w : Nat → ℝ} (hw : ∀ i < 3, w i = rndFreq i) (i j : Nat) (hi : i < 3) (hj : j < 3) (h : i ≠ j)
    (e : w i = w j) : .i2 i j ∈ [Mode.i2 0 1, .i1 2] ∨ .i2 j i ∈ [Mode.i2 0 1, .i1 2] := by
  rw [hw i hi, hw j hj] at e
  interval_cases i <;> interval_cases j <;> first | exact absurd rfl h | (norm_num [rndFreq] at e; done) | simp

/-- The states which the example reports as one. -/
theorem rnd_components : Components [.i2 0 1, .i1 2] (.i2st [(1, 1), (0, 0), (0, 0)]) (Osc.single 0) (Osc.single 1) :=
  components_pair (modes := [.i2 0 1, .i1 2]) (N := 3) (by decide) (q := 0) (by decide) (by norm_num)

theorem rnd_components0 : Components [.i2 0 1, .i1 2] (.i1st [0, 0, 0]) (fun _ => 0) (fun _ => 0) := by
  refine ⟨fun q hq => ?_, fun q hq => ?_⟩
  · have : q = 0 := by change q < 1 at hq; omega
    subst this
    exact ⟨rfl, rfl⟩
  · have : q = 0 := by change q < 1 at hq; omega
    subst this
    exact ⟨rfl, rfl, rfl⟩

/-- The hypotheses of `c110_run_linear` are met by a run in which the third mode changes the moments of inertia and is
anharmonic and the bending mode has a Coriolis constant; the two states reported as one for the bending mode have energies,
with and without rotation. -/
example (j : ℝ) : ∃ (fc2 : Mat ℝ) (out hout : Output ℝ Nat),
    let s := rndMol true
    let modes := out.resonances.modes
    let w := entryOf hout.harms
    let φ := cubicField 9 s.axes rndOne3 w out.lx
    let ψ := quarticField 9 s.axes rndOne4 w out.lx
    let ζ := zetaField 3 out.lxm
    let A := inertiaField 3 s.pos s.weights out.lxm
    let level := fun (n : Nat → Nat) (j : ℝ) (e : ℝ) => ∃ E0 E1 E2, e = E0 + E1 + E2 ∧
      LinearRotEnergy 16 s.primat A w φ ψ ζ (about 1 j) (fun i : Fin 3 => n i) E0 E1 E2
    s.rotor = .linear ∧ Symm3 s.n3n rndOne3 ∧ Symm4 s.n3n rndOne4 ∧
    run s (turnedOracles 9 rndPerm (3 / 5) (4 / 5)) (.quartic fc2 rndOne3 rndOne4) = some out ∧
    run s (turnedOracles 9 rndPerm (3 / 5) (4 / 5)) (.harmonic fc2) = some hout ∧
    s.rotcon 1 = 16 / s.primat 1 ∧ out.resonances.coriolis = [] ∧ (∀ i < 3, 0 < w i) ∧ NoResonance 3 w ∧
    (modeNumbers modes).Perm (List.range 3) ∧ (VibRot.mk s.rotcon s.primat w A ζ φ).Axial modes (fun _ => 1) 1 0 ∧
    (∀ k k2, .i2 k k2 ∈ modes → A k 1 1 = 0) ∧
    (∀ k k2 j j2, .i2 k k2 ∈ modes → .i2 j j2 ∈ modes → ζ k j 0 = 0 ∧ ζ k j 1 = 0 ∧ ζ k j2 1 = 0) ∧
    (∀ i j, i < 3 → j < 3 → i ≠ j → w i = w j → .i2 i j ∈ modes ∨ .i2 j i ∈ modes) ∧
    A 2 1 1 ≠ 0 ∧ φ 2 2 2 ≠ 0 ∧ ζ 0 1 2 ≠ 0 ∧
    ∃ r ∈ out.rots, ∃ n n', Components modes r.state n n' ∧ n 0 = 1 ∧ ∃ E E' G G',
      level n j E ∧ level n' j E' ∧ level n 0 G ∧ level n' 0 G' := by
  obtain ⟨out, hout, e, b, f, g, h3, h4, h, hh, -, -, -, hc, hm, he, hb, hf, hw, pa, p3, p4, pz, -, r, hr, hst⟩ := rnd_run true
  have lev : ∀ (k : Fin 3) (hk : k = 0 ∨ k = 1) (j : ℝ), ∃ e' E0 E1 E2, e' = E0 + E1 + E2 ∧
      LinearRotEnergy 16 (rndMol true).primat (inertiaField 3 (rndMol true).pos (rndMol true).weights out.lxm) (entryOf hout.harms)
        (cubicField 9 (rndMol true).axes rndOne3 (entryOf hout.harms) out.lx)
        (quarticField 9 (rndMol true).axes rndOne4 (entryOf hout.harms) out.lx) (zetaField 3 out.lxm) (about 1 j)
        (fun i : Fin 3 => Osc.single k i) E0 E1 E2 := by
    intro k hk j
    obtain ⟨E0, E1, E2, hE⟩ := rnd_comp 16 (dropAxis (rndMol true).primat) e b f g j k hk
    exact ⟨_, E0, E1, E2, rfl, (linearRotEnergy_congr hw pa p3 p4 pz).2 (linear_rotEnergy.2 hE)⟩
  obtain ⟨E, hE⟩ := lev 0 (.inl rfl) j
  obtain ⟨E', hE'⟩ := lev 1 (.inr rfl) j
  obtain ⟨G, hG⟩ := lev 0 (.inl rfl) 0
  obtain ⟨G', hG'⟩ := lev 1 (.inr rfl) 0
  refine ⟨rndHess, out, hout, rfl, h3, h4, h, hh, rfl, hc, fun i hi => by rw [hw i hi]; exact rndFreq_pos i, ?_, by rw [hm]; decide,
    by rw [hm]; exact rnd_fields h3 hw pa p3 pz, ?_, ?_, by rw [hm]; exact rnd_partner hw, ?_, ?_, ?_, r, hr, Osc.single 0,
    Osc.single 1, by rw [hst, hm]; exact rnd_components, rfl, E, E', G, G', hE, hE', hG, hG'⟩
  · intro i j k hi hj hk
    rw [hw i hi, hw j hj, hw k hk]
    exact rndFreq_noRes i j k hi hj hk
  · intro k k2 hk
    rw [hm] at hk
    simp at hk
    obtain ⟨rfl, rfl⟩ := hk
    rw [pa _ _ _ (by norm_num) (by norm_num) (by norm_num)]
    norm_num [rndA]
  · intro k k2 j j2 hk hj
    rw [hm] at hk hj
    simp at hk hj
    obtain ⟨rfl, rfl⟩ := hk
    obtain ⟨rfl, rfl⟩ := hj
    refine ⟨?_, ?_, ?_⟩ <;> rw [pz _ _ _ (by norm_num) (by norm_num) (by norm_num)] <;> norm_num [rndZeta]
  · rw [pa _ _ _ (by norm_num) (by norm_num) (by norm_num)]
    intro h0
    norm_num [rndA] at h0
    rw [h0] at hb
    norm_num at hb
  · rw [p3 _ _ _ (by norm_num) (by norm_num) (by norm_num)]
    simpa [rndF3] using hf
  · rw [pz _ _ _ (by norm_num) (by norm_num) (by norm_num)]
    intro h0
    norm_num [rndZeta] at h0
    rw [h0] at he
    norm_num at he

/-- The hypotheses of `c110_run_partial` and `c110_run_rotating_partial` are met by a run of an oblate top in which the third
mode changes the moments of inertia and is anharmonic and the degenerate mode has a Coriolis constant. The states reported
as one for the degenerate mode and the ground state have energies if the top rotates about a perpendicular axis, and the
rotating states of the mode and the ground state have energies if it rotates about the unique axis. -/
example (j σ : ℝ) (hσ : σ ^ 2 = 1) : ∃ (fc2 : Mat ℝ) (out hout : Output ℝ Nat),
    let s := rndMol false
    let modes := out.resonances.modes
    let w := entryOf hout.harms
    let φ := cubicField 9 s.axes rndOne3 w out.lx
    let ψ := quarticField 9 s.axes rndOne4 w out.lx
    let ζ := zetaField 3 out.lxm
    let A := inertiaField 3 s.pos s.weights out.lxm
    let level := fun (n : Nat → Nat) (J : Nat → ℝ) (e : ℝ) => ∃ E0 E1 E2, e = E0 + E1 + E2 ∧
      RotEnergy 16 s.primat A w φ ψ ζ J (fun i : Fin 3 => n i) E0 E1 E2
    s.rotor = .oblateSymmTop ∧ Symm3 s.n3n rndOne3 ∧ Symm4 s.n3n rndOne4 ∧
    run s (turnedOracles 9 rndPerm (3 / 5) (4 / 5)) (.quartic fc2 rndOne3 rndOne4) = some out ∧
    run s (turnedOracles 9 rndPerm (3 / 5) (4 / 5)) (.harmonic fc2) = some hout ∧
    (∀ a < 3, s.rotcon a = 16 / s.primat a) ∧ out.resonances.coriolis = [] ∧ (∀ i < 3, 0 < w i) ∧ NoResonance 3 w ∧
    (modeNumbers modes).Perm (List.range 3) ∧ (VibRot.mk s.rotcon s.primat w A ζ φ).Axial modes (fun _ => 1) 1 0 ∧
    (∀ i j, i < 3 → j < 3 → i ≠ j → w i = w j → .i2 i j ∈ modes ∨ .i2 j i ∈ modes) ∧
    A 2 1 1 ≠ 0 ∧ φ 2 2 2 ≠ 0 ∧ ζ 0 1 2 ≠ 0 ∧ (∀ k k2, .i2 k k2 ∈ modes → ζ k k2 1 = 0) ∧
    ∃ r0 ∈ out.rots, ∃ r ∈ out.rots, Components modes r0.state (fun _ => 0) (fun _ => 0) ∧
      Components modes r.state (Osc.single 0) (Osc.single 1) ∧
      r.state = .i2st ((List.replicate 3 (0, 0)).set 0 (1, 1)) ∧ degPairs modes = [(0, 1)] ∧
      (∃ E E' G G' F H, level (Osc.single 0) (about 1 j) E ∧ level (Osc.single 1) (about 1 j) E' ∧
        level (Osc.single 0) (about 1 0) G ∧ level (Osc.single 1) (about 1 0) G' ∧
        level (fun _ => 0) (about 1 j) F ∧ level (fun _ => 0) (about 1 0) H) ∧
      ∃ E0 E1 E2 G0 G1 G2 F H,
        RotPairEnergy 16 s.primat A w φ ψ ζ (about 2 j) (fun i : Fin 3 => if (i : Nat) = 0 then 1 else 0)
          (fun i : Fin 3 => if (i : Nat) = 1 then 1 else 0) σ E0 E1 E2 ∧
        RotPairEnergy 16 s.primat A w φ ψ ζ (about 2 0) (fun i : Fin 3 => if (i : Nat) = 0 then 1 else 0)
          (fun i : Fin 3 => if (i : Nat) = 1 then 1 else 0) σ G0 G1 G2 ∧
        level (fun _ => 0) (about 2 j) F ∧ level (fun _ => 0) (about 2 0) H := by
  obtain ⟨out, hout, e, b, f, g, h3, h4, h, hh, -, -, -, hc, hm, he, hb, hf, hw, pa, p3, p4, pz, ⟨r0, hr0, hst0⟩, r, hr, hst⟩ :=
    rnd_run false
  have conv : ∀ {n : Fin 3 → Nat} {J : Nat → ℝ},
      (∃ E0 E1 E2, RotEnergy 16 rndI (rndA b) rndFreq (rndF3 f) (rndF4 g) (rndZeta e) J n E0 E1 E2) →
      ∃ e' E0 E1 E2, e' = E0 + E1 + E2 ∧
      RotEnergy 16 (rndMol false).primat (inertiaField 3 (rndMol false).pos (rndMol false).weights out.lxm) (entryOf hout.harms)
        (cubicField 9 (rndMol false).axes rndOne3 (entryOf hout.harms) out.lx)
        (quarticField 9 (rndMol false).axes rndOne4 (entryOf hout.harms) out.lx) (zetaField 3 out.lxm) J n E0 E1 E2 := by
    rintro n J ⟨E0, E1, E2, hE⟩
    exact ⟨_, E0, E1, E2, rfl, (rotEnergy_congr hw pa p3 p4 pz).2 hE⟩
  obtain ⟨E, hE⟩ := conv (rnd_comp 16 rndI e b f g j 0 (.inl rfl))
  obtain ⟨E', hE'⟩ := conv (rnd_comp 16 rndI e b f g j 1 (.inr rfl))
  obtain ⟨G, hG⟩ := conv (rnd_comp 16 rndI e b f g 0 0 (.inl rfl))
  obtain ⟨G', hG'⟩ := conv (rnd_comp 16 rndI e b f g 0 1 (.inr rfl))
  obtain ⟨F, hF⟩ := conv (rnd_ground 16 rndI e b f g 1 j)
  obtain ⟨H, hH⟩ := conv (rnd_ground 16 rndI e b f g 1 0)
  obtain ⟨F', hF'⟩ := conv (rnd_ground 16 rndI e b f g 2 j)
  obtain ⟨H', hH'⟩ := conv (rnd_ground 16 rndI e b f g 2 0)
  obtain ⟨E0, E1, E2, hP⟩ := rnd_pair e b f g j σ hσ
  obtain ⟨G0, G1, G2, hQ⟩ := rnd_pair e b f g 0 σ hσ
  refine ⟨rndHess, out, hout, rfl, h3, h4, h, hh, fun _ _ => rfl, hc, fun i hi => by rw [hw i hi]; exact rndFreq_pos i, ?_,
    by rw [hm]; decide, by rw [hm]; exact rnd_fields h3 hw pa p3 pz, by rw [hm]; exact rnd_partner hw, ?_, ?_, ?_, ?_, r0, hr0, r,
    hr, by rw [hst0, hm]; exact rnd_components0, by rw [hst, hm]; exact rnd_components, by rw [hst]; rfl, by rw [hm]; rfl,
    ⟨E, E', G, G', F, H, hE, hE', hG, hG', hF, hH⟩, E0, E1, E2, G0, G1, G2, F', H',
    (rotPairEnergy_congr hw pa p3 p4 pz).2 hP, (rotPairEnergy_congr hw pa p3 p4 pz).2 hQ, hF', hH'⟩
  · intro i j k hi hj hk
    rw [hw i hi, hw j hj, hw k hk]
    exact rndFreq_noRes i j k hi hj hk
  · rw [pa _ _ _ (by norm_num) (by norm_num) (by norm_num)]
    intro h0
    norm_num [rndA] at h0
    rw [h0] at hb
    norm_num at hb
  · rw [p3 _ _ _ (by norm_num) (by norm_num) (by norm_num)]
    simpa [rndF3] using hf
  · rw [pz _ _ _ (by norm_num) (by norm_num) (by norm_num)]
    intro h0
    norm_num [rndZeta] at h0
    rw [h0] at he
    norm_num at he
  · intro k k2 hk
    rw [hm] at hk
    simp at hk
    obtain ⟨rfl, rfl⟩ := hk
    rw [pz _ _ _ (by norm_num) (by norm_num) (by norm_num)]
    norm_num [rndZeta]

end

end Verif
