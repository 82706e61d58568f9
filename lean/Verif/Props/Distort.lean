import Verif.Props.Reduce
import Verif.Props.Whole

/-!
# The distortion constants a run reports (C94)
-/

namespace Verif

open Finset

variable {ι : Type}

/-- The data of the rotational Hamiltonian of the molecule of a run: its input and the modes it reports. -/
noncomputable def runRotor (s : SpectroIn ℝ) (f3x : T3 ℝ) (out : Output ℝ ι) : RotorData :=
  ⟨s.nvib, s.rotcon, s.primat, entryOf out.harms, inertiaField s.natom s.pos s.weights out.lxm,
    zetaField s.natom out.lxm, cubicField s.n3n s.axes f3x (entryOf out.harms) out.lx⟩

/-- A Hamiltonian with the quartic part `A4` and the sextic part `A6` is a reduced form of the Hamiltonian of the
molecule: there is a canonical transformation to a Hamiltonian that is even in each component, and another from
there, with the rigid rotor `B`, to the reduced form. -/
def Reduced (D : RotorData) (B : ℕ → ℝ) (A4 A6 : Poly) : Prop :=
  ∃ s t s' t' E4 E6, SkewGen 3 s ∧ SkewGen 5 t ∧ OrthoGen 3 s' ∧ OrthoGen 5 t' ∧
    Transforms s t (rotorH D.B) D.H4 D.H6 (quarticH E4) (sexticH E6) ∧
    Transforms s' t' (rotorH B) (quarticH E4) (sexticH E6) A4 A6

theorem tau_congr {n : ℕ} {B I ω ω' : ℕ → ℝ} {a a' ζ ζ' k k' : ℕ → ℕ → ℕ → ℝ} (hω : ∀ v < n, ω v = ω' v)
    (ha : ∀ v < n, ∀ i < 3, ∀ j < 3, a v i j = a' v i j) (i j p q : Fin 3) :
    RotorData.τ ⟨n, B, I, ω, a, ζ, k⟩ i j p q = RotorData.τ ⟨n, B, I, ω', a', ζ', k'⟩ i j p q := by
  unfold RotorData.τ
  refine congrArg _ (sum_congr rfl fun v hv => ?_)
  have hv := mem_range.1 hv
  dsimp only
  rw [hω v hv, ha v hv i i.2 j j.2, ha v hv p p.2 q q.2]

theorem shift_congr {n : ℕ} {B I ω ω' : ℕ → ℝ} {a a' ζ ζ' k k' : ℕ → ℕ → ℕ → ℝ} (hω : ∀ v < n, ω v = ω' v)
    (ha : ∀ v < n, ∀ i < 3, ∀ j < 3, a v i j = a' v i j) (v : ℕ) (hv : v < n) :
    RotorData.shift ⟨n, B, I, ω, a, ζ, k⟩ v = RotorData.shift ⟨n, B, I, ω', a', ζ', k'⟩ v := by
  unfold RotorData.shift
  refine sum_congr rfl fun i _ => sum_congr rfl fun j _ => ?_
  dsimp only
  rw [hω v hv, ha v hv i i.2 j j.2]

/-- The Hamiltonian depends on the data of the modes and axes there are only. -/
theorem rotor_congr {n : ℕ} {B I ω ω' : ℕ → ℝ} {a a' ζ ζ' k k' : ℕ → ℕ → ℕ → ℝ} (hω : ∀ v < n, ω v = ω' v)
    (ha : ∀ v < n, ∀ i < 3, ∀ j < 3, a v i j = a' v i j) (hζ : ∀ i < n, ∀ j < n, ∀ g < 3, ζ i j g = ζ' i j g)
    (hk : ∀ i < n, ∀ j < n, ∀ l < n, k i j l = k' i j l) :
    RotorData.H4 ⟨n, B, I, ω, a, ζ, k⟩ = RotorData.H4 ⟨n, B, I, ω', a', ζ', k'⟩ ∧
    RotorData.H6 ⟨n, B, I, ω, a, ζ, k⟩ = RotorData.H6 ⟨n, B, I, ω', a', ζ', k'⟩ := by
  have t := tau_congr (B := B) (I := I) (ζ := ζ) (ζ' := ζ') (k := k) (k' := k') hω ha
  have sh := shift_congr (B := B) (I := I) (ζ := ζ) (ζ' := ζ') (k := k) (k' := k') hω ha
  have cor : ∀ i < n, RotorData.coriolis ⟨n, B, I, ω, a, ζ, k⟩ i = RotorData.coriolis ⟨n, B, I, ω', a', ζ', k'⟩ i := by
    intro i hi
    unfold RotorData.coriolis
    refine sum_congr rfl fun j hj => ?_
    have hj : j < n := mem_range.1 hj
    rw [sh j hj]
    dsimp only
    rw [hω i hi, hω j hj]
    refine congrArg _ (congrArg _ (sum_congr rfl fun g _ => ?_))
    rw [hζ j hj i hi g g.2]
  have tq : ∀ w : Fin 3, RotorData.torque ⟨n, B, I, ω, a, ζ, k⟩ w = RotorData.torque ⟨n, B, I, ω', a', ζ', k'⟩ w := by
    intro w
    unfold RotorData.torque
    simp only [t]
  refine ⟨?_, ?_⟩
  · unfold RotorData.H4
    simp only [t]
  · unfold RotorData.H6
    simp only [tq]
    refine congrArg₂ _ (congrArg₂ _ rfl ?_) ?_
    · refine congrArg _ (sum_congr rfl fun i hi => ?_)
      have hi := mem_range.1 hi
      rw [cor i hi]
      rw [hω i hi]
    · refine congrArg _ (sum_congr rfl fun i hi => sum_congr rfl fun j hj => sum_congr rfl fun l hl => ?_)
      have hi := mem_range.1 hi
      have hj := mem_range.1 hj
      have hl := mem_range.1 hl
      rw [sh i hi, sh j hj, sh l hl]
      rw [hk i hi j hj l hl]

/-- The first of the two transformations, for the data of a run. -/
theorem run_even (s : SpectroIn ℝ) (o : Oracles ℝ ι) (fc2 : Mat ℝ) (f3x : T3 ℝ) (f4x : T4 ℝ) (out : Output ℝ ι)
    (hr : s.rotor = .asymmTop) (hn : s.n3n = 3 * s.natom) (hv : s.nvib ≤ s.n3n) (h0 : 0 < s.nvib) (h2 : s.natom ≠ 2)
    (h3 : Symm3 s.n3n f3x) (h4 : Symm4 s.n3n f4x) (he : ∀ m, (o.eigen m).1.length = s.n3n)
    (h01 : 1 / 200 < |s.rotcon 0 - s.rotcon 1|) (h02 : 1 / 200 < |s.rotcon 0 - s.rotcon 2|)
    (h12 : 1 / 200 < |s.rotcon 1 - s.rotcon 2|) (h : run s o (.quartic fc2 f3x f4x) = some out) :
    ∃ freq F3 F4 zm wila, AsymParts s o f3x f4x out freq F3 F4 zm wila ∧
      ∃ u t, SkewGen 3 u ∧ SkewGen 5 t ∧ Transforms u t (rotorH s.rotcon) (runRotor s f3x out).H4
        (runRotor s f3x out).H6 (quarticH (tau4 s.nvib (vecOf freq) s.primat wila))
        (sexticH (sexticScc .asymmTop s.nvib freq.length s.rotcon s.primat (vecOf freq) wila zm F3)) := by
  obtain ⟨m, F4, hm, -, -, -, P⟩ := asym_parts_modes hr hn hv h0 h3 h4 h
  refine ⟨_, _, _, _, _, P, ?_⟩
  have hl : m.freq.length = s.n3n := by
    unfold runModes at hm
    simp only [Option.bind_eq_bind, Option.bind_eq_some_iff] at hm
    obtain ⟨p, -, irr, -, hm⟩ := hm
    obtain rfl := Option.some.inj hm
    simp only [toWavenumbers, List.length_map]
    rw [(c11_pairs_rearranged _ _ _).1, he]
  have key := c90_partial s.nvib m.freq.length (by omega) s.rotcon s.primat (vecOf m.freq)
    (wilsonA s.nvib s.natom s.pos m.lxm s.weights) (makeZmat s.nvib s.natom m.lxm)
    (f3Of (force3 s.n3n (rot3rd s.n3n s.natom s.axes f3x) m.lx s.nvib (vecOf m.freq))) h01 h02 h12 (by
      intro i j k
      simp only [f3Of, F3qcm.get]
      exact ⟨by rw [find3_perm (List.Perm.swap j i [k])], by rw [find3_perm (List.Perm.cons i (List.Perm.swap k j []))]⟩)
  obtain ⟨e4, e6⟩ := rotor_congr (n := s.nvib) (B := s.rotcon) (I := s.primat) (ω := vecOf m.freq)
    (ω' := entryOf out.harms) (a := fun v i j => wilsonA s.nvib s.natom s.pos m.lxm s.weights v (pairIdx i j))
    (a' := inertiaField s.natom s.pos s.weights out.lxm) (ζ := makeZmat s.nvib s.natom m.lxm)
    (ζ' := zetaField s.natom out.lxm)
    (k := f3Of (force3 s.n3n (rot3rd s.n3n s.natom s.axes f3x) m.lx s.nvib (vecOf m.freq)))
    (k' := cubicField s.n3n s.axes f3x (entryOf out.harms) out.lx) P.w
    (fun v hv i hi j hj => P.a v i j hv hi hj) (fun i hi j hj g hg => P.z i j g hi hj hg)
    (fun i hi j hj l hl => P.f3 i j l hi hj hl)
  dsimp only at key
  rw [e4, e6] at key
  exact key

/-- C94, A reduction: the quartic and sextic constants a run reports for Watson's A reduction are the coefficients of
a reduced form of the Hamiltonian of the molecule, which is given by the input and the reported modes. -/
theorem c94_a_reduction (s : SpectroIn ℝ) (o : Oracles ℝ ι) (fc2 : Mat ℝ) (f3x : T3 ℝ) (f4x : T4 ℝ) (out : Output ℝ ι)
    (hr : s.rotor = .asymmTop) (hn : s.n3n = 3 * s.natom) (hv : s.nvib ≤ s.n3n) (h0 : 0 < s.nvib) (h2 : s.natom ≠ 2)
    (h3 : Symm3 s.n3n f3x) (h4 : Symm4 s.n3n f4x) (he : ∀ m, (o.eigen m).1.length = s.n3n)
    (h01 : 1 / 200 < |s.rotcon 0 - s.rotcon 1|) (h02 : 1 / 200 < |s.rotcon 0 - s.rotcon 2|)
    (h12 : 1 / 200 < |s.rotcon 1 - s.rotcon 2|) (h : run s o (.quartic fc2 f3x f4x) = some out) :
    let q := out.quartic
    let S := out.sextic
    Reduced (runRotor s f3x out) s.rotcon (watsonA4 1 2 0 q.delj q.deljk q.delk q.sdelj q.sdelk)
      (watsonA6 1 2 0 S.phij S.phijk S.phikj S.phik S.sphij S.sphijk S.sphik) := by
  intro q S
  obtain ⟨freq, F3, F4, zm, wila, P, u, t, hu, ht, hT⟩ :=
    run_even s o fc2 f3x f4x out hr hn hv h0 h2 h3 h4 he h01 h02 h12 h
  obtain ⟨u', t', hu', ht', hT'⟩ := c91_reduction s.nvib freq.length s.rotcon s.primat (vecOf freq) wila zm F3 _
    P.quart (by
      intro e
      rw [e, sub_self, abs_zero] at h12
      linarith)
  rw [← P.sext] at hT'
  exact ⟨u, t, u', t', _, _, hu, ht, hu', ht', hT, hT'⟩

/-- C94, S reduction: the same. The rigid rotor `B` of the second transformation has the asymmetry of the rotational
constants, and its difference between the z axis and the mean of the others is corrected by `10 T004`, where `T004` is
a combination of the constants `τ`. -/
theorem c94_s_reduction (s : SpectroIn ℝ) (o : Oracles ℝ ι) (fc2 : Mat ℝ) (f3x : T3 ℝ) (f4x : T4 ℝ) (out : Output ℝ ι)
    (hr : s.rotor = .asymmTop) (hn : s.n3n = 3 * s.natom) (hv : s.nvib ≤ s.n3n) (h0 : 0 < s.nvib) (h2 : s.natom ≠ 2)
    (h3 : Symm3 s.n3n f3x) (h4 : Symm4 s.n3n f4x) (he : ∀ m, (o.eigen m).1.length = s.n3n)
    (h01 : 1 / 200 < |s.rotcon 0 - s.rotcon 1|) (h02 : 1 / 200 < |s.rotcon 0 - s.rotcon 2|)
    (h12 : 1 / 200 < |s.rotcon 1 - s.rotcon 2|) (hσ : s.rotcon 0 - (s.rotcon 1 + s.rotcon 2) / 2 ≠ 0)
    (h : run s o (.quartic fc2 f3x f4x) = some out) (B : ℕ → ℝ)
    (hB : let P := tauPair (runRotor s f3x out).τ
      B 0 - (B 1 + B 2) / 2 = s.rotcon 0 - (s.rotcon 1 + s.rotcon 2) / 2 + 10 * ((P 1 1 + P 2 2 - 2 * P 1 2) / 64))
    (hne : B 0 - (B 1 + B 2) / 2 ≠ 0)
    (hS : (B 0 - (B 1 + B 2) / 2) * (s.rotcon 1 - s.rotcon 2) =
      (s.rotcon 0 - (s.rotcon 1 + s.rotcon 2) / 2) * (B 1 - B 2)) :
    let q := out.quartic
    let S := out.sextic
    Reduced (runRotor s f3x out) B (watsonS4 1 2 0 q.dj q.djk q.dk q.sd1 q.sd2)
      (watsonS6 1 2 0 S.hj S.hjk S.hkj S.hk S.h1 S.h2 S.h3) := by
  intro q S
  obtain ⟨freq, F3, F4, zm, wila, P, u, t, hu, ht, hT⟩ :=
    run_even s o fc2 f3x f4x out hr hn hv h0 h2 h3 h4 he h01 h02 h12 h
  have hd : s.rotcon 1 - s.rotcon 2 ≠ 0 := by
    intro e
    rw [e, abs_zero] at h12
    linarith
  obtain ⟨qσ, q6, -⟩ := c82_quartic s o fc2 f3x f4x out hr hn hv h0 h3 h4 h
  have e2 : 2 * s.rotcon 0 - s.rotcon 1 - s.rotcon 2 = 2 * (s.rotcon 0 - (s.rotcon 1 + s.rotcon 2) / 2) := by ring
  obtain ⟨u', t', hu', ht', hT'⟩ := c92_reduction s.nvib freq.length s.rotcon s.primat (vecOf freq) wila zm F3 _
    P.quart (by
      rw [qσ, e2]
      exact div_ne_zero (mul_ne_zero two_ne_zero hσ) hd) B (by rw [q6]; exact hB) hne (by
      rw [qσ, e2, div_mul_eq_mul_div, eq_div_iff hd]
      linear_combination 2 * hS)
  rw [← P.sext] at hT'
  exact ⟨u, t, u', t', _, _, hu, ht, hu', ht', hT, hT'⟩

/-- Three atoms displaced along the first axis. -/
noncomputable def exampleRod : SpectroIn ℝ :=
  { exampleTop with pos := fun a x => if x = 0 then a + 1 else 0, primat := fun _ => 1 }

/-- A run that meets the hypotheses of `c94_a_reduction` and `c94_s_reduction`. -/
example (f3x : T3 ℝ) (f4x : T4 ℝ) (h3 : Symm3 exampleRod.n3n f3x) (h4 : Symm4 exampleRod.n3n f4x) (fc2 : Mat ℝ) :
    ∃ out : Output ℝ Nat, exampleRod.rotor = .asymmTop ∧ exampleRod.n3n = 3 * exampleRod.natom ∧
    exampleRod.nvib ≤ exampleRod.n3n ∧ 0 < exampleRod.nvib ∧ exampleRod.natom ≠ 2 ∧
    (∀ m, (exactOracles2.eigen m).1.length = exampleRod.n3n) ∧
    1 / 200 < |exampleRod.rotcon 0 - exampleRod.rotcon 1| ∧ 1 / 200 < |exampleRod.rotcon 0 - exampleRod.rotcon 2| ∧
    1 / 200 < |exampleRod.rotcon 1 - exampleRod.rotcon 2| ∧
    exampleRod.rotcon 0 - (exampleRod.rotcon 1 + exampleRod.rotcon 2) / 2 ≠ 0 ∧
    run exampleRod exactOracles2 (.quartic fc2 f3x f4x) = some out ∧
    (let P := tauPair (runRotor exampleRod f3x out).τ
      ∃ B : ℕ → ℝ, B 0 - (B 1 + B 2) / 2 = exampleRod.rotcon 0 - (exampleRod.rotcon 1 + exampleRod.rotcon 2) / 2 +
          10 * ((P 1 1 + P 2 2 - 2 * P 1 2) / 64) ∧
        B 0 - (B 1 + B 2) / 2 ≠ 0 ∧ (B 0 - (B 1 + B 2) / 2) * (exampleRod.rotcon 1 - exampleRod.rotcon 2) =
          (exampleRod.rotcon 0 - (exampleRod.rotcon 1 + exampleRod.rotcon 2) / 2) * (B 1 - B 2)) := by
  obtain ⟨out, h⟩ := Option.isSome_iff_exists.1 (c74_completes exampleRod exactOracles2 fc2 f3x f4x rfl (by decide)
    (by decide) rfl (by decide) (fun m => (exactOracles_eigen m).2) (fun p v q => (exactOracles2_eigen2 p v q).1) le_rfl)
  refine ⟨out, rfl, rfl, by decide, by decide, by decide, fun m => (exactOracles_eigen m).2, ?_, ?_, ?_, ?_, h,
    exampleRod.rotcon, ?_, ?_, rfl⟩
  · norm_num [exampleRod, exampleTop]
  · norm_num [exampleRod, exampleTop]
  · norm_num [exampleRod, exampleTop]
  · norm_num [exampleRod, exampleTop]
  · have a12 : ∀ k, inertiaField 3 (fun a x => if x = 0 then ((a : ℕ) : ℝ) + 1 else 0) (fun _ => 1) out.lxm k 1 2 = 0 := by
      intro k
      simp [inertiaField]
    have a22 : ∀ k, inertiaField 3 (fun a x => if x = 0 then ((a : ℕ) : ℝ) + 1 else 0) (fun _ => 1) out.lxm k 2 2 =
        inertiaField 3 (fun a x => if x = 0 then ((a : ℕ) : ℝ) + 1 else 0) (fun _ => 1) out.lxm k 1 1 := by
      intro k
      rw [inertiaField, inertiaField, if_pos rfl, if_pos rfl]
      have e1 : ∀ f : Nat → ℝ, ∑ y ∈ (range 3).erase 1, f y = f 0 + f 2 := fun f => sum_pair (show (0 : Nat) ≠ 2 by decide)
      have e2 : ∀ f : Nat → ℝ, ∑ y ∈ (range 3).erase 2, f y = f 0 + f 1 := fun f => sum_pair (show (0 : Nat) ≠ 1 by decide)
      simp only [e1, e2]
      norm_num
    have P22 : tauPair (runRotor exampleRod f3x out).τ 2 2 = tauPair (runRotor exampleRod f3x out).τ 1 1 := by
      simp only [tauPair, if_true, RotorData.τ, runRotor, exampleRod, exampleTop, a22]
    have P12 : tauPair (runRotor exampleRod f3x out).τ 1 2 = tauPair (runRotor exampleRod f3x out).τ 1 1 := by
      simp only [tauPair, if_true, RotorData.τ, runRotor, exampleRod, exampleTop, a22, a12]
      norm_num
    rw [P22, P12]
    ring
  · norm_num [exampleRod, exampleTop]

end Verif
