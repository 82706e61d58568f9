import Verif.Lemmas.Whole
import Verif.Lemmas.Mix
import Verif.Lemmas.WholeExample
import Verif.Props.Resonance

/-!
# From the input to the reported numbers (C80-C82)
-/

namespace Verif

open Finset

variable {ι : Type}

/-! ## C80 -/

/-- C80, resonances: a completed run of an asymmetric top reports exactly the resonances of its own harmonic
frequencies, its own modes and the derivatives given, each once. -/
theorem c80_resonances (s : SpectroIn ℝ) (o : Oracles ℝ ι) (fc2 : Mat ℝ) (f3x : T3 ℝ) (f4x : T4 ℝ) (out : Output ℝ ι)
    (hr : s.rotor = .asymmTop) (hn : s.n3n = 3 * s.natom) (hv : s.nvib ≤ s.n3n) (h0 : 0 < s.nvib)
    (h3 : Symm3 s.n3n f3x) (h4 : Symm4 s.n3n f4x) (h : run s o (.quartic fc2 f3x f4x) = some out) :
    let w := entryOf out.harms
    let φ := cubicField s.n3n s.axes f3x w out.lx
    let ζ := zetaField s.natom out.lxm
    (out.resonances.coriolis.Nodup ∧ ∀ i j a, (⟨i, j, a⟩ : Coriolis) ∈ out.resonances.coriolis ↔
      j < i ∧ i < s.nvib ∧ a < 3 ∧ |w i - w j| ≤ 200 ∧ 0.25 ≤ |ζ i j a|) ∧
    (out.resonances.fermi1.Nodup ∧ ∀ i j, (⟨i, j⟩ : Fermi1) ∈ out.resonances.fermi1 ↔
      i < s.nvib ∧ j < s.nvib ∧ |2 * w i - w j| ≤ 200 ∧ 10 ≤ |φ i i j|) ∧
    (out.resonances.fermi2.Nodup ∧ ∀ i j k, (⟨i, j, k⟩ : Fermi2) ∈ out.resonances.fermi2 ↔
      k < j ∧ j < i ∧ i < s.nvib ∧ 10 ≤ |φ i j k| ∧
      (|(w i - w j - w k) * (-w i + w j - w k) * (-w i - w j + w k) * (w i + w j + w k)| ≤ 1000 ∨
        |max (w i - w j - w k) (max (-w i + w j - w k) (-w i - w j + w k))| ≤ 200)) ∧
    (out.resonances.darling.Nodup ∧ ∀ i j, (⟨i, j⟩ : Darling) ∈ out.resonances.darling ↔
      j < i ∧ i < s.nvib ∧ |2 * w i - 2 * w j| ≤ 300) := by
  intro w φ ζ
  obtain ⟨freq, F3, F4, zm, wila, P⟩ := asym_parts hr hn hv h0 h3 h4 h
  have hres := P.rest
  unfold reststNew at hres
  simp only [Option.bind_eq_bind, Option.bind_eq_some_iff] at hres
  obtain ⟨cor, hc, f1, hf1, f2, hf2, dd, hdd, t, -, hres⟩ := hres
  rw [← Option.some.inj hres]
  obtain ⟨L, e, n1, m1⟩ := c22_iff s.nvib (vecOf freq) zm
  obtain rfl : L = cor := Option.some.inj (e.symm.trans hc)
  obtain ⟨L1, e, n2, m2⟩ := c23_iff s.nvib (vecOf freq) F3
  obtain rfl : L1 = f1 := Option.some.inj (e.symm.trans hf1)
  obtain ⟨L2, e, n3, m3⟩ := c24_iff s.nvib (vecOf freq) F3
  obtain rfl : L2 = f2 := Option.some.inj (e.symm.trans hf2)
  obtain ⟨L3, e, n4, m4⟩ := c25_iff s.nvib (vecOf freq)
  obtain rfl : L3 = dd := Option.some.inj (e.symm.trans hdd)
  refine ⟨⟨n1, fun i j a => ?_⟩, ⟨n2, fun i j => ?_⟩, ⟨n3, fun i j k => ?_⟩, ⟨n4, fun i j => ?_⟩⟩
  · rw [m1]
    refine and_congr_right fun hj => and_congr_right fun hi => and_congr_right fun ha => ?_
    rw [P.w i hi, P.w j (by omega), P.z i j a hi (by omega) ha]
  · rw [m2]
    refine and_congr_right fun hi => and_congr_right fun hj => ?_
    rw [P.w i hi, P.w j hj, P.f3 i i j hi hi hj]
  · rw [m3]
    refine and_congr_right fun hk => and_congr_right fun hj => and_congr_right fun hi => ?_
    rw [P.w i hi, P.w j (by omega), P.w k (by omega), P.f3 i j k hi (by omega) (by omega)]
  · rw [m4]
    refine and_congr_right fun hj => and_congr_right fun hi => ?_
    rw [P.w i hi, P.w j (by omega)]

/-- The anharmonic constants inside a run are those of perturbation theory. -/
theorem asym_x {s : SpectroIn ℝ} {o : Oracles ℝ ι} {f3x : T3 ℝ} {f4x : T4 ℝ} {out : Output ℝ ι} {freq : List ℝ}
    {F3 : T3 ℝ} {F4 : T4 ℝ} {zm : T3 ℝ} {wila : Mat ℝ} (P : AsymParts s o f3x f4x out freq F3 F4 zm wila)
    (hreg : Regular (Listed out.resonances.fermi1 out.resonances.fermi2) s.nvib (entryOf out.harms))
    (k l : Nat) (hk : k < s.nvib) (hl : l < s.nvib) :
    (xcalc s.nvib F4 (vecOf freq) F3 zm s.rotcon out.resonances.modes out.resonances.fermi1
      out.resonances.fermi2).1 k l =
      xSpec (Listed out.resonances.fermi1 out.resonances.fermi2) s.nvib (entryOf out.harms)
        (cubicField s.n3n s.axes f3x (entryOf out.harms) out.lx) (quarticField s.n3n s.axes f4x (entryOf out.harms) out.lx)
        (zetaField s.natom out.lxm) s.rotcon k l := by
  have hf2 : fermi2 .asymmTop (degModes .asymmTop s.nvib (vecOf freq)) (vecOf freq) F3 = some out.resonances.fermi2 := by
    obtain ⟨t, -, hm, -, -, -, -, -, h2⟩ := restst_parts P.rest
    rw [← hm]; exact h2
  have off : ∀ k l, l < k → k < s.nvib →
      (xcalc s.nvib F4 (vecOf freq) F3 zm s.rotcon out.resonances.modes out.resonances.fermi1
        out.resonances.fermi2).1 k l = xklSpec (Listed out.resonances.fermi1 out.resonances.fermi2) s.nvib
        (entryOf out.harms) (cubicField s.n3n s.axes f3x (entryOf out.harms) out.lx)
        (quarticField s.n3n s.axes f4x (entryOf out.harms) out.lx) (zetaField s.natom out.lxm) s.rotcon k l ∧
      (xcalc s.nvib F4 (vecOf freq) F3 zm s.rotcon out.resonances.modes out.resonances.fermi1
        out.resonances.fermi2).1 l k = xklSpec (Listed out.resonances.fermi1 out.resonances.fermi2) s.nvib
        (entryOf out.harms) (cubicField s.n3n s.axes f3x (entryOf out.harms) out.lx)
        (quarticField s.n3n s.axes f4x (entryOf out.harms) out.lx) (zetaField s.natom out.lxm) s.rotcon k l := by
    intro k l hl hk
    have := c31_offdiagonal s.nvib F4 (vecOf freq) F3 zm s.rotcon out.resonances.modes out.resonances.fermi1
      out.resonances.fermi2 k l hl hk (fun m _ => c31_detected _ _ _ _ _ _ hf2 k l m (by omega)) (fun m hm n1 n2 n3 => by
        rw [P.w k hk, P.w l (by omega), P.w m hm]
        exact hreg.2 k l m hk hl hm n1 n2 n3)
    rw [xklSpec_congr hk (by omega) P.w P.f3 P.f4 P.z] at this
    exact this
  unfold xSpec
  rcases lt_trichotomy k l with h | rfl | h
  · rw [if_neg (by omega), max_eq_right h.le, min_eq_left h.le]
    exact (off l k h hl).2
  · rw [if_pos rfl, c31_diagonal _ _ _ _ _ _ _ _ _ _ hk (fun l hl hn => by
      rw [P.w k hk, P.w l hl]
      exact hreg.1 k l hk hl hn), xkkSpec_congr hk P.w P.f3 P.f4]
  · rw [if_neg (by omega), max_eq_left h.le, min_eq_right h.le]
    exact (off k l h hk).1

/-- C80, fundamentals: the reported fundamental of mode `i` is `w_i + 2 x_ii + ½ Σ x_ij` with the anharmonic constants
of perturbation theory for the reported frequencies, modes and resonances and the derivatives given. -/
theorem c80_fundamentals (s : SpectroIn ℝ) (o : Oracles ℝ ι) (fc2 : Mat ℝ) (f3x : T3 ℝ) (f4x : T4 ℝ) (out : Output ℝ ι)
    (hr : s.rotor = .asymmTop) (hn : s.n3n = 3 * s.natom) (hv : s.nvib ≤ s.n3n) (h0 : 0 < s.nvib)
    (h3 : Symm3 s.n3n f3x) (h4 : Symm4 s.n3n f4x) (h : run s o (.quartic fc2 f3x f4x) = some out)
    (hreg : Regular (Listed out.resonances.fermi1 out.resonances.fermi2) s.nvib (entryOf out.harms)) :
    let w := entryOf out.harms
    let x := xSpec (Listed out.resonances.fermi1 out.resonances.fermi2) s.nvib w
      (cubicField s.n3n s.axes f3x w out.lx) (quarticField s.n3n s.axes f4x w out.lx) (zetaField s.natom out.lxm) s.rotcon
    out.funds.length = s.nvib ∧
    ∀ i < s.nvib, out.funds[i]? = some (w i + 2 * x i i + 1 / 2 * ∑ j ∈ (range s.nvib).erase i, x i j) := by
  intro w x
  obtain ⟨freq, F3, F4, zm, wila, P⟩ := asym_parts hr hn hv h0 h3 h4 h
  have hx := asym_x P hreg
  rw [P.funds]
  refine ⟨by simp [makeFunds], fun i hi => ?_⟩
  simp only [makeFunds, List.getElem?_map, List.getElem?_range hi, Option.map_some, Option.some.injEq]
  rw [makeFunds_sum, P.w i hi, hx i i hi hi]
  congr 2
  exact sum_congr rfl fun j hj => hx i j hi (mem_range.1 (mem_of_mem_erase hj))

/-- The frequencies of a run all being equal, it is regular whatever is listed. -/
theorem equal_regular {n : Nat} {w : Nat → ℝ} {W : ℝ} (hW : 0 < W) (h : ∀ i < n, w i = W) (R : Nat → Nat → Nat → Prop) :
    Regular R n w := by
  refine ⟨fun k l hk hl _ => ?_, fun k l m hk hl hm _ _ _ => ?_⟩
  · rw [h k hk, h l hl]
    exact ⟨by linarith, by linarith, by linarith⟩
  · rw [h k hk, h l (by omega), h m hm]
    exact ⟨by linarith, by linarith, by linarith, by linarith⟩

/-- A run that meets the hypotheses of the theorems of C80: three atoms, frequencies 1000, cubic constants 7, so no Fermi
resonances. -/
example : ∃ (fc2 : Mat ℝ) (f3x : T3 ℝ) (f4x : T4 ℝ) (out : Output ℝ Nat), exampleTop.rotor = .asymmTop ∧ exampleTop.n3n = 3 * exampleTop.natom ∧ exampleTop.nvib ≤ exampleTop.n3n ∧
    0 < exampleTop.nvib ∧ Symm3 exampleTop.n3n f3x ∧ Symm4 exampleTop.n3n f4x ∧
    run exampleTop exactOracles2 (.quartic fc2 f3x f4x) = some out ∧
    (∀ p v q, IsEigen2 p v q (exactOracles2.eigen2 p v q)) ∧
    out.resonances.fermi1 = [] ∧ out.resonances.fermi2 = [] ∧
    Regular (fun _ _ _ => False) exampleTop.nvib (entryOf out.harms) ∧
    Regular (Listed out.resonances.fermi1 out.resonances.fermi2) exampleTop.nvib (entryOf out.harms) ∧
    cubicField exampleTop.n3n exampleTop.axes f3x (entryOf out.harms) out.lx 0 1 2 = 7 := by
  obtain ⟨fc2, f3x, f4x, out, h3, h4, h, hw, hF⟩ := equal_run 1000 7 (by norm_num)
  obtain ⟨-, ⟨-, h1⟩, ⟨-, h2⟩, -⟩ := c80_resonances _ _ _ _ _ _ rfl rfl (by decide) (by decide) h3 h4 h
  refine ⟨fc2, f3x, f4x, out, rfl, rfl, by decide, by decide, h3, h4, h, exactOracles2_eigen2, ?_, ?_,
    equal_regular (by norm_num) hw _, equal_regular (by norm_num) hw _, hF 0 1 2 (by decide) (by decide) (by decide)⟩
  · rw [List.eq_nil_iff_forall_not_mem]
    rintro ⟨i, j⟩ hm
    obtain ⟨hi, hj, hd, -⟩ := (h1 i j).1 hm
    rw [hw i hi, hw j hj] at hd
    norm_num at hd
  · rw [List.eq_nil_iff_forall_not_mem]
    rintro ⟨i, j, k⟩ hm
    obtain ⟨hk, hj, hi, -, hd⟩ := (h2 i j k).1 hm
    rw [hw i hi, hw j (by omega), hw k (by omega)] at hd
    norm_num at hd

/-! ## C81 -/

/-- Zero-point energy and corrected fundamentals of a run before the anharmonic constants are identified. -/
theorem asym_corrected {s : SpectroIn ℝ} {o : Oracles ℝ ι} {f3x : T3 ℝ} {f4x : T4 ℝ} {out : Output ℝ ι}
    {freq : List ℝ} {F3 : T3 ℝ} {F4 : T4 ℝ} {zm : T3 ℝ} {wila : Mat ℝ}
    (P : AsymParts s o f3x f4x out freq F3 F4 zm wila) (he : ∀ p v q, IsEigen2 p v q (o.eigen2 p v q)) :
    let X := xcalc s.nvib F4 (vecOf freq) F3 zm s.rotcon out.resonances.modes out.resonances.fermi1 out.resonances.fermi2
    let nu := fun i => vecOf freq i + 2 * X.1 i i + 1 / 2 * ∑ j ∈ (range s.nvib).erase i, X.1 i j
    out.zpt = X.2 + 1 / 2 * ∑ i ∈ range s.nvib, vecOf freq i + 1 / 4 * unorderedSum X.1 (List.range s.nvib) ∧
    out.corrs = (List.range s.nvib).map
      (pushed s.nvib out.resonances.fermi1 out.resonances.fermi2 nu X.1 F3) := by
  intro X nu
  obtain ⟨t, ht, hmd, hst, hfu, hov, hco, hf1, hf2⟩ := restst_parts P.rest
  have hm : out.resonances.modes = (List.range s.nvib).map Mode.i1 := hmd
  rw [hmd] at hf1 hf2
  have h := corrected_pushed o.eigen2 he (vecOf freq) X.1 out.resonances F3 X.2
    (List.replicate out.resonances.states.length (Arith.lit 0.0)) s.nvib s.i2vib t hm ht hst hfu hov hco
    (fun f hf => (fermi1_asym_mem hf1 hf).2) (fun f hf => by have := fermi2_asym_mem hf2 hf; omega)
    (fermi1_order hf1) (fermi2_order hf2) (by simp) (fun a _ b _ => c30_asymmetric _ _ _ _ _ _ _ _ _ _ _)
  have h' := P.corr.symm.trans h
  rw [Option.some.injEq, Prod.mk.injEq] at h'
  exact h'

/-- C80, zero-point energy: without Fermi resonances the reported zero-point energy is the constant term of
perturbation theory plus `½ Σ w_i + ¼ Σ_{i ≤ j} x_ij`. (With Fermi resonances the constant term is wrong, see C32.) -/
theorem c80_zero_point (s : SpectroIn ℝ) (o : Oracles ℝ ι) (fc2 : Mat ℝ) (f3x : T3 ℝ) (f4x : T4 ℝ) (out : Output ℝ ι)
    (hr : s.rotor = .asymmTop) (hn : s.n3n = 3 * s.natom) (hv : s.nvib ≤ s.n3n) (h0 : 0 < s.nvib)
    (h3 : Symm3 s.n3n f3x) (h4 : Symm4 s.n3n f4x) (h : run s o (.quartic fc2 f3x f4x) = some out)
    (he : ∀ p v q, IsEigen2 p v q (o.eigen2 p v q))
    (hnf : out.resonances.fermi1 = [] ∧ out.resonances.fermi2 = [])
    (hreg : Regular (fun _ _ _ => False) s.nvib (entryOf out.harms)) :
    let w := entryOf out.harms
    let φ := cubicField s.n3n s.axes f3x w out.lx
    let ψ := quarticField s.n3n s.axes f4x w out.lx
    let x := xSpec (fun _ _ _ => False) s.nvib w φ ψ (zetaField s.natom out.lxm) s.rotcon
    out.zpt = e0Spec (fun _ _ _ => False) (List.range s.nvib) w φ ψ + 1 / 2 * ∑ i ∈ range s.nvib, w i +
      1 / 4 * unorderedSum x (List.range s.nvib) := by
  intro w φ ψ x
  obtain ⟨freq, F3, F4, zm, wila, P⟩ := asym_parts hr hn hv h0 h3 h4 h
  have hL : Listed out.resonances.fermi1 out.resonances.fermi2 = fun _ _ _ => False := by
    rw [hnf.1, hnf.2]
    funext a b c
    simp [Listed]
  have hx := asym_x P (hL ▸ hreg)
  rw [hL] at hx
  rw [(asym_corrected P he).1]
  have hmd : out.resonances.modes = (List.range s.nvib).map Mode.i1 := (restst_parts P.rest).choose_spec.2.1
  have hnd : nonDeg out.resonances.modes = List.range s.nvib := by
    rw [hmd]; simp [nonDeg, List.filterMap_map]
  have hc := c32_partial s.nvib F4 (vecOf freq) F3 zm s.rotcon out.resonances.modes out.resonances.fermi1
    out.resonances.fermi2 (fun a _ b _ c _ => by rw [hL]; exact id) (by
      rw [hnd]
      refine ⟨fun a ha b hb _ => ?_, fun a ha b hb c hc hab hbc => ?_⟩
      · have ha := List.mem_range.1 ha
        have hb := List.mem_range.1 hb
        rw [P.w a ha, P.w b hb]
        exact (hreg.1 a b ha hb id).2
      · have ha := List.mem_range.1 ha
        have hb := List.mem_range.1 hb
        have hc := List.mem_range.1 hc
        rw [P.w a ha, P.w b hb, P.w c hc]
        exact hreg.2 a b c ha hab hc id id id)
  rw [hc, hnd, hL, e0Spec_congr P.w P.f3 P.f4, sum_congr rfl fun i hi => P.w i (mem_range.1 hi),
    unordered_congr_on fun a ha b hb => hx a b (List.mem_range.1 ha) (List.mem_range.1 hb)]

/-- C81: the corrected fundamental of each mode is its fundamental pushed by the overtones and combinations it resonates
with, each in a two-level problem, with the levels and matrix elements of perturbation theory for the reported
frequencies, modes and resonances. -/
theorem c81_corrected (s : SpectroIn ℝ) (o : Oracles ℝ ι) (fc2 : Mat ℝ) (f3x : T3 ℝ) (f4x : T4 ℝ) (out : Output ℝ ι)
    (hr : s.rotor = .asymmTop) (hn : s.n3n = 3 * s.natom) (hv : s.nvib ≤ s.n3n) (h0 : 0 < s.nvib)
    (h3 : Symm3 s.n3n f3x) (h4 : Symm4 s.n3n f4x) (h : run s o (.quartic fc2 f3x f4x) = some out)
    (he : ∀ p v q, IsEigen2 p v q (o.eigen2 p v q))
    (hreg : Regular (Listed out.resonances.fermi1 out.resonances.fermi2) s.nvib (entryOf out.harms)) :
    let w := entryOf out.harms
    let φ := cubicField s.n3n s.axes f3x w out.lx
    let x := xSpec (Listed out.resonances.fermi1 out.resonances.fermi2) s.nvib w φ
      (quarticField s.n3n s.axes f4x w out.lx) (zetaField s.natom out.lxm) s.rotcon
    out.corrs = (List.range s.nvib).map
      (pushed s.nvib out.resonances.fermi1 out.resonances.fermi2 (entryOf out.funds) x φ) := by
  intro w φ x
  obtain ⟨freq, F3, F4, zm, wila, P⟩ := asym_parts hr hn hv h0 h3 h4 h
  have hx := asym_x P hreg
  rw [(asym_corrected P he).2]
  refine List.map_congr_left fun k hk => pushed_congr (List.mem_range.1 hk) (fun i hi => ?_)
    (fun i j hi hj => hx i j hi hj) P.f3
  have := (c80_fundamentals s o fc2 f3x f4x out hr hn hv h0 h3 h4 h hreg).2 i hi
  rw [entryOf, List.getD_eq_getElem?_getD, this, Option.getD_some, P.w i hi, hx i i hi hi]
  congr 2
  exact sum_congr rfl fun j hj => hx i j hi (mem_range.1 (mem_of_mem_erase hj))

/-- C81: a fundamental without a listed resonance is reported uncorrected. -/
theorem c81_untouched (s : SpectroIn ℝ) (o : Oracles ℝ ι) (fc2 : Mat ℝ) (f3x : T3 ℝ) (f4x : T4 ℝ) (out : Output ℝ ι)
    (hr : s.rotor = .asymmTop) (hn : s.n3n = 3 * s.natom) (hv : s.nvib ≤ s.n3n) (h0 : 0 < s.nvib)
    (h3 : Symm3 s.n3n f3x) (h4 : Symm4 s.n3n f4x) (h : run s o (.quartic fc2 f3x f4x) = some out)
    (he : ∀ p v q, IsEigen2 p v q (o.eigen2 p v q)) (k : Nat) (hk : k < s.nvib)
    (h1 : ∀ i, (⟨i, k⟩ : Fermi1) ∉ out.resonances.fermi1) (h2 : ∀ i j, (⟨i, j, k⟩ : Fermi2) ∉ out.resonances.fermi2) :
    out.corrs[k]? = out.funds[k]? := by
  obtain ⟨freq, F3, F4, zm, wila, P⟩ := asym_parts hr hn hv h0 h3 h4 h
  have hc : couplings s.nvib out.resonances.fermi1 out.resonances.fermi2 k = [] := by
    rw [List.eq_nil_iff_forall_not_mem]
    intro p hp
    obtain ⟨-, -, ⟨-, hm, -⟩ | ⟨-, hm, -⟩⟩ := mem_couplings.1 hp
    · exact h1 _ hm
    · exact h2 _ _ hm
  rw [(asym_corrected P he).2, P.funds]
  simp only [makeFunds, List.getElem?_map, List.getElem?_range hk, Option.map_some, Option.some.injEq, pushed, hc,
    List.foldl_nil, makeFunds_sum]

/-- Two coupled levels move apart. -/
theorem twoLevel_moves (e q v : ℝ) (hv : v ≠ 0) : (twoLevel e q v).2 ≠ q := by
  have hlt : |(e - q) / 2| < Real.sqrt (((e - q) / 2) ^ 2 + v ^ 2) := by
    refine Real.lt_sqrt_of_sq_lt ?_
    rw [sq_abs]
    have := sq_pos_of_ne_zero hv
    linarith
  unfold twoLevel
  dsimp only
  split
  · rename_i h
    rw [abs_of_nonneg (by linarith)] at hlt
    intro hc
    dsimp only at hc
    linarith
  · rename_i h
    rw [abs_of_neg (by linarith)] at hlt
    intro hc
    dsimp only at hc
    linarith

/-- C81, violated: a listed resonance need not change the fundamental. The overtone of a mode listed with two partners is
only mixed with the higher one. Here the frequencies are all 100 and the cubic constants all 100; the overtone of mode 0 is
listed with the fundamental of mode 1 and coupled to it, so that a two-level problem would move the fundamental wherever
the overtone lies, but the corrected fundamental is the uncorrected one. -/
theorem c81_every_violated : ∃ (fc2 : Mat ℝ) (f3x : T3 ℝ) (f4x : T4 ℝ) (out : Output ℝ Nat), exampleTop.rotor = .asymmTop ∧ exampleTop.n3n = 3 * exampleTop.natom ∧ exampleTop.nvib ≤ exampleTop.n3n ∧
    0 < exampleTop.nvib ∧ Symm3 exampleTop.n3n f3x ∧ Symm4 exampleTop.n3n f4x ∧
    run exampleTop exactOracles2 (.quartic fc2 f3x f4x) = some out ∧
    (∀ p v q, IsEigen2 p v q (exactOracles2.eigen2 p v q)) ∧
    (⟨0, 1⟩ : Fermi1) ∈ out.resonances.fermi1 ∧
    ∃ nu, out.funds[1]? = some nu ∧
      (∀ e, (twoLevel e nu (pairCoupling
        (cubicField exampleTop.n3n exampleTop.axes f3x (entryOf out.harms) out.lx) (0, 0) 1)).2 ≠ nu) ∧
      out.corrs[1]? = some nu := by
  obtain ⟨fc2, f3x, f4x, out, h3, h4, h, hw, hF⟩ := equal_run 100 100 (by norm_num)
  have hreg := equal_regular (by norm_num) hw (Listed out.resonances.fermi1 out.resonances.fermi2)
  obtain ⟨-, ⟨-, h1⟩, ⟨-, h2⟩, -⟩ := c80_resonances _ _ _ _ _ _ rfl rfl (by decide) (by decide) h3 h4 h
  have hc := c81_corrected _ _ _ _ _ _ rfl rfl (by decide) (by decide) h3 h4 h exactOracles2_eigen2 hreg
  have hf := (c80_fundamentals _ _ _ _ _ _ rfl rfl (by decide) (by decide) h3 h4 h hreg).2 1 (by decide)
  have m1 : ∀ i j, i < 3 → j < 3 → (⟨i, j⟩ : Fermi1) ∈ out.resonances.fermi1 := by
    intro i j hi hj
    rw [h1]
    refine ⟨hi, hj, ?_, ?_⟩
    · rw [hw i hi, hw j hj]; norm_num
    · rw [hF i i j hi hi hj]; norm_num
  refine ⟨fc2, f3x, f4x, out, rfl, rfl, by decide, by decide, h3, h4, h, exactOracles2_eigen2,
    m1 0 1 (by omega) (by omega), _, hf, fun e => twoLevel_moves _ _ _ ?_, ?_⟩
  · rw [pairCoupling, if_pos rfl, hF 0 0 1 (by decide) (by decide) (by decide)]
    norm_num
  · have hcp : couplings exampleTop.nvib out.resonances.fermi1 out.resonances.fermi2 1 = [] := by
      rw [List.eq_nil_iff_forall_not_mem]
      rintro ⟨i, j⟩ hp
      obtain ⟨hi, hj, ⟨-, -, hm⟩ | ⟨hij, hm, -⟩⟩ := mem_couplings.1 hp
      · have := hm ⟨i, 2⟩ (m1 i 2 hi (by omega)) rfl
        dsimp only at this
        omega
      · obtain ⟨g1, g2, g3, -⟩ := (h2 _ _ _).1 hm
        have : exampleTop.nvib = 3 := rfl
        dsimp only at hij g1 g2 g3
        omega
    rw [hc, List.getElem?_map, List.getElem?_range (by decide), Option.map_some, pushed, hcp, List.foldl_nil, entryOf,
      List.getD_eq_getElem?_getD, hf, Option.getD_some]

/-- A run that meets the hypotheses of `c81_corrected`, with the overtones of modes 0 and 1 and their combination pushing
fundamentals: see `c81_every_violated`. One that meets those of `c81_untouched` is the run of the example of C80. -/
example : ∃ (fc2 : Mat ℝ) (f3x : T3 ℝ) (f4x : T4 ℝ) (out : Output ℝ Nat), exampleTop.rotor = .asymmTop ∧ exampleTop.n3n = 3 * exampleTop.natom ∧ exampleTop.nvib ≤ exampleTop.n3n ∧
    0 < exampleTop.nvib ∧ Symm3 exampleTop.n3n f3x ∧ Symm4 exampleTop.n3n f4x ∧
    run exampleTop exactOracles2 (.quartic fc2 f3x f4x) = some out ∧
    (∀ p v q, IsEigen2 p v q (exactOracles2.eigen2 p v q)) ∧
    Regular (Listed out.resonances.fermi1 out.resonances.fermi2) exampleTop.nvib (entryOf out.harms) ∧
    (0, 0) ∈ couplings exampleTop.nvib out.resonances.fermi1 out.resonances.fermi2 2 ∧
    (1, 2) ∈ couplings exampleTop.nvib out.resonances.fermi1 out.resonances.fermi2 0 := by
  obtain ⟨fc2, f3x, f4x, out, h3, h4, h, hw, hF⟩ := equal_run 100 100 (by norm_num)
  obtain ⟨-, ⟨-, h1⟩, ⟨-, h2⟩, -⟩ := c80_resonances _ _ _ _ _ _ rfl rfl (by decide) (by decide) h3 h4 h
  have hn : exampleTop.nvib = 3 := rfl
  refine ⟨fc2, f3x, f4x, out, rfl, rfl, by decide, by decide, h3, h4, h, exactOracles2_eigen2,
    equal_regular (by norm_num) hw _, mem_couplings.2 ⟨by decide, by decide, .inl ⟨rfl, ?_, ?_⟩⟩,
    mem_couplings.2 ⟨by decide, by decide, .inr ⟨by decide, ?_, ?_⟩⟩⟩
  · rw [h1]
    refine ⟨by decide, by decide, ?_, ?_⟩
    · rw [hw 0 (by decide), hw 2 (by decide)]; norm_num
    · rw [hF 0 0 2 (by decide) (by decide) (by decide)]; norm_num
  · rintro ⟨i, j⟩ hm -
    have := ((h1 i j).1 hm).2.1
    dsimp only
    omega
  · rw [h2]
    refine ⟨by decide, by decide, by decide, ?_, .inr ?_⟩
    · rw [hF 2 1 0 (by decide) (by decide) (by decide)]; norm_num
    · rw [hw 0 (by decide), hw 1 (by decide), hw 2 (by decide)]; norm_num
  · rintro ⟨i, j, k⟩ hm - he
    have := ((h2 i j k).1 hm).1
    dsimp only at he ⊢
    omega

/-! ## C82 -/

/-- The vibration-rotation constants inside a run are those of perturbation theory. -/
theorem asym_alpha {s : SpectroIn ℝ} {o : Oracles ℝ ι} {f3x : T3 ℝ} {f4x : T4 ℝ} {out : Output ℝ ι} {freq : List ℝ}
    {F3 : T3 ℝ} {F4 : T4 ℝ} {zm : T3 ℝ} {wila : Mat ℝ} (P : AsymParts s o f3x f4x out freq F3 F4 zm wila)
    (hlt : ∀ c ∈ out.resonances.coriolis, c.j < c.i)
    (hone : ∀ c ∈ out.resonances.coriolis, ∀ c' ∈ out.resonances.coriolis, c.i = c'.i → c.j = c'.j → c.axis = c'.axis) :
    let w := entryOf out.harms
    let al := alphaSpec (fun i j x => (⟨i, j, x⟩ : Coriolis) ∈ out.resonances.coriolis ∨
      (⟨j, i, x⟩ : Coriolis) ∈ out.resonances.coriolis) s.nvib s.rotcon s.primat w
      (inertiaField s.natom s.pos s.weights out.lxm) (zetaField s.natom out.lxm) (cubicField s.n3n s.axes f3x w out.lx)
    ∀ i < s.nvib, ∀ x < 3, alpha s.nvib s.rotcon s.primat (vecOf freq) wila zm F3 out.resonances.coriolis i x =
      al i x := by
  intro w al
  intro i hi x hx
  rw [c28_regular_iff_listed_partial]
  · simp only [al, alphaFormula, alphaSpec]
    rw [P.w i hi]
    have g1 : ∑ y ∈ range 3, wila i (pairIdx x y) ^ 2 / s.primat y =
        ∑ y ∈ range 3, inertiaField s.natom s.pos s.weights out.lxm i x y ^ 2 / s.primat y :=
      sum_congr rfl fun y hy => by rw [P.a i x y hi hx (mem_range.1 hy)]
    have g3 : ∑ j ∈ range s.nvib, wila j (pairIdx x x) * F3 i i j * entryOf out.harms i / vecOf freq j ^ (3 / 2 : ℝ) =
        ∑ j ∈ range s.nvib, inertiaField s.natom s.pos s.weights out.lxm j x x *
          cubicField s.n3n s.axes f3x w out.lx i i j * w i / w j ^ (3 / 2 : ℝ) :=
      sum_congr rfl fun j hj => by
        have hj := mem_range.1 hj
        rw [P.a j x x hj hx hx, P.f3 i i j hi hi hj, P.w j hj]
    rw [g1, g3]
    congr 3
    rw [filter_ne']
    refine sum_congr rfl fun j hj => ?_
    have hj := mem_range.1 (mem_of_mem_erase hj)
    rw [P.z i j x hi hj hx, P.w j hj]
    rfl
  · rintro ⟨a, b, x⟩ hc ⟨a', b', x'⟩ hc' (⟨e1, e2⟩ | ⟨e1, e2⟩)
    · exact hone _ hc _ hc' e1 e2
    · have g1 := hlt _ hc
      have g2 := hlt _ hc'
      dsimp only at e1 e2 g1 g2
      omega

/-- C82, vibration-rotation constants: unless a pair of modes is listed as resonant about two axes (see C28), the reported
constants of the state with one quantum in mode `k` differ from those of the ground state by the vibration-rotation
constants of perturbation theory for the reported frequencies, modes and Coriolis resonances. -/
theorem c82_rotational (s : SpectroIn ℝ) (o : Oracles ℝ ι) (fc2 : Mat ℝ) (f3x : T3 ℝ) (f4x : T4 ℝ) (out : Output ℝ ι)
    (hr : s.rotor = .asymmTop) (hn : s.n3n = 3 * s.natom) (hv : s.nvib ≤ s.n3n) (h0 : 0 < s.nvib)
    (h3 : Symm3 s.n3n f3x) (h4 : Symm4 s.n3n f4x) (h : run s o (.quartic fc2 f3x f4x) = some out)
    (hone : ∀ c ∈ out.resonances.coriolis, ∀ c' ∈ out.resonances.coriolis, c.i = c'.i → c.j = c'.j → c.axis = c'.axis) :
    let w := entryOf out.harms
    let al := alphaSpec (fun i j x => (⟨i, j, x⟩ : Coriolis) ∈ out.resonances.coriolis ∨
      (⟨j, i, x⟩ : Coriolis) ∈ out.resonances.coriolis) s.nvib s.rotcon s.primat w
      (inertiaField s.natom s.pos s.weights out.lxm) (zetaField s.natom out.lxm) (cubicField s.n3n s.axes f3x w out.lx)
    out.rots.length = s.nvib + 1 ∧
    ∃ r0, out.rots[0]? = some r0 ∧ r0.state = .i1st (List.replicate s.nvib 0) ∧
      ∀ k < s.nvib, ∃ r, out.rots[k + 1]? = some r ∧ r.state = .i1st ((List.replicate s.nvib 0).set k 1) ∧
        r.a - r0.a = al k 0 ∧ r.b - r0.b = al k 1 ∧ r.c - r0.c = al k 2 := by
  intro w al
  obtain ⟨freq, F3, F4, zm, wila, P⟩ := asym_parts hr hn hv h0 h3 h4 h
  have hh : 2 < s.header.getD 7 4 := by
    by_contra hc
    rw [c74_header_panics s o fc2 f3x f4x hr (by omega)] at h
    cases h
  obtain ⟨t, ht, hmd, hst, -⟩ := restst_parts P.rest
  obtain ⟨R, hR, hrota⟩ := P.rots
  obtain ⟨R', rs, e1, e2, hl, hz, hd⟩ := c40_reported s.header s.nvib _ s.rotcon (vecOf freq)
    (alpha s.nvib s.rotcon s.primat (vecOf freq) wila zm F3 out.resonances.coriolis) t (hmd ▸ ht) out.quartic hh
  rw [← hmd, ← hst] at e1
  rw [← hst] at e2
  obtain rfl : R' = R := Option.some.inj (e1.symm.trans hR)
  obtain rfl : rs = out.rots := Option.some.inj (e2.symm.trans hrota)
  obtain ⟨⟨-, hcor⟩, -⟩ := c80_resonances s o fc2 f3x f4x out hr hn hv h0 h3 h4 h
  have key := asym_alpha P (fun c hc => ((hcor c.i c.j c.axis).1 hc).1) hone
  refine ⟨hl, ?_⟩
  obtain ⟨r0, hr0⟩ : ∃ r0, out.rots[0]? = some r0 := ⟨_, List.getElem?_eq_getElem (by omega)⟩
  refine ⟨r0, hr0, hz r0 hr0, fun k hk => ?_⟩
  obtain ⟨r, hr⟩ : ∃ r, out.rots[k + 1]? = some r := ⟨_, List.getElem?_eq_getElem (by omega)⟩
  obtain ⟨d1, d2, d3, d4⟩ := hd k hk r0 r hr0 hr
  rw [key k hk 0 (by omega)] at d2
  rw [key k hk 1 (by omega)] at d3
  rw [key k hk 2 (by omega)] at d4
  exact ⟨r, hr, d1, d2, d3, d4⟩

/-- Ray's asymmetry parameter and the rotational constants of the S reduction. -/
theorem quartic_asymm_s {nvib : Nat} {rotcon primat freq : Vec ℝ} {wila : Mat ℝ} {q : Quartic ℝ}
    (hq : Quartic.new .asymmTop nvib rotcon primat freq wila = some q) :
    q.rkappa = (2 * rotcon 1 - rotcon 0 - rotcon 2) / (rotcon 0 - rotcon 2) ∧
    q.bxs = rotcon 1 - 4 * q.r6 + (2 + 1 / q.sigma) * (2 * q.r5) ∧
    q.bys = rotcon 2 - 4 * q.r6 - (2 - 1 / q.sigma) * (2 * q.r5) ∧
    q.bzs = rotcon 0 + 6 * q.r6 - 5 * q.r5 / q.sigma := by
  obtain rfl := Option.some.inj (show some _ = some q from hq)
  simp only [lit_real]
  have hd0 : (princCart 0).2 0 = 1 := rfl
  have hd1 : (princCart 0).2 1 = 2 := rfl
  have hd2 : (princCart 0).2 2 = 0 := rfl
  simp only [hd0, hd1, hd2]
  push_cast
  norm_num only
  generalize (2 * rotcon 0 - rotcon 1 - rotcon 2) / (rotcon 1 - rotcon 2) = σ
  clear hq
  refine ⟨trivial, ?_, ?_, ?_⟩ <;> ring

/-- The distortion constants inside a run. -/
theorem asym_tau {s : SpectroIn ℝ} {o : Oracles ℝ ι} {f3x : T3 ℝ} {f4x : T4 ℝ} {out : Output ℝ ι} {freq : List ℝ}
    {F3 : T3 ℝ} {F4 : T4 ℝ} {zm : T3 ℝ} {wila : Mat ℝ} (P : AsymParts s o f3x f4x out freq F3 F4 zm wila)
    (i j : Nat) (hi : i < 3) (hj : j < 3) : tauPrime (makeTau s.nvib (vecOf freq) s.primat wila) i j =
      tauPair (tauSpec s.nvib (entryOf out.harms) s.primat (inertiaField s.natom s.pos s.weights out.lxm)) i j := by
  have e : ∀ a b c d, a < 3 → b < 3 → c < 3 → d < 3 → makeTau s.nvib (vecOf freq) s.primat wila a b c d =
      tauSpec s.nvib (entryOf out.harms) s.primat (inertiaField s.natom s.pos s.weights out.lxm) a b c d := by
    intro a b c d ha hb hc hd
    rw [c44_value]
    unfold tauSpec
    refine congrArg _ (sum_congr rfl fun v hv => ?_)
    have hv := mem_range.1 hv
    dsimp only
    rw [P.a v a b hv ha hb, P.a v c d hv hc hd, P.w v hv]
  unfold tauPrime tauPair
  dsimp only
  by_cases h : i = j
  · subst h
    rw [if_neg (by simp), if_pos rfl, e i i i i hi hi hi hi]
  · rw [if_pos h, if_neg h, e i i j j hi hi hj hj, e i j i j hi hj hi hj, lit_real]
    norm_num

/-- C82, constants of the ground state: the reported constants are the equilibrium ones plus half the sum of the
vibration-rotation constants, plus the contribution of the distortion constants to the A reduction. -/
theorem c82_ground (s : SpectroIn ℝ) (o : Oracles ℝ ι) (fc2 : Mat ℝ) (f3x : T3 ℝ) (f4x : T4 ℝ) (out : Output ℝ ι)
    (hr : s.rotor = .asymmTop) (hn : s.n3n = 3 * s.natom) (hv : s.nvib ≤ s.n3n) (h0 : 0 < s.nvib)
    (h3 : Symm3 s.n3n f3x) (h4 : Symm4 s.n3n f4x) (h : run s o (.quartic fc2 f3x f4x) = some out)
    (hone : ∀ c ∈ out.resonances.coriolis, ∀ c' ∈ out.resonances.coriolis, c.i = c'.i → c.j = c'.j → c.axis = c'.axis) :
    let w := entryOf out.harms
    let al := alphaSpec (fun i j x => (⟨i, j, x⟩ : Coriolis) ∈ out.resonances.coriolis ∨
      (⟨j, i, x⟩ : Coriolis) ∈ out.resonances.coriolis) s.nvib s.rotcon s.primat w
      (inertiaField s.natom s.pos s.weights out.lxm) (zetaField s.natom out.lxm) (cubicField s.n3n s.axes f3x w out.lx)
    let P := tauPair (tauSpec s.nvib w s.primat (inertiaField s.natom s.pos s.weights out.lxm))
    let T := (P 1 1 + P 2 2 - 2 * P 1 2) / 64
    let σ := (2 * s.rotcon 0 - s.rotcon 1 - s.rotcon 2) / (s.rotcon 1 - s.rotcon 2)
    ∃ r0, out.rots[0]? = some r0 ∧ r0.state = .i1st (List.replicate s.nvib 0) ∧
      r0.a = s.rotcon 0 + 1 / 2 * ∑ k ∈ range s.nvib, al k 0 + 16 * T ∧
      r0.b = s.rotcon 1 + 1 / 2 * ∑ k ∈ range s.nvib, al k 1 - 8 * (σ + 1) * T ∧
      r0.c = s.rotcon 2 + 1 / 2 * ∑ k ∈ range s.nvib, al k 2 + 8 * (σ - 1) * T := by
  intro w al Q T σ
  obtain ⟨freq, F3, F4, zm, wila, P⟩ := asym_parts hr hn hv h0 h3 h4 h
  have hh : 2 < s.header.getD 7 4 := by
    by_contra hc
    rw [c74_header_panics s o fc2 f3x f4x hr (by omega)] at h
    cases h
  obtain ⟨t, ht, hmd, hst, -⟩ := restst_parts P.rest
  obtain ⟨⟨-, hcor⟩, -⟩ := c80_resonances s o fc2 f3x f4x out hr hn hv h0 h3 h4 h
  have key := asym_alpha P (fun c hc => ((hcor c.i c.j c.axis).1 hc).1) hone
  obtain ⟨R, hR, hrota⟩ := P.rots
  obtain ⟨R', e1, hav⟩ := c40_averaged s.nvib _ (vecOf freq) t (hmd ▸ ht) s.rotcon
    (alpha s.nvib s.rotcon s.primat (vecOf freq) wila zm F3 out.resonances.coriolis)
  rw [← hmd, ← hst] at e1
  obtain rfl : R' = R := Option.some.inj (e1.symm.trans hR)
  obtain ⟨g0, g1, -⟩ := states_first (modes := degModes .asymmTop s.nvib (vecOf freq)) (hmd ▸ ht)
  rw [partition_asym .asymmTop rfl, List.length_range] at g1
  have hlen : s.nvib + 1 ≤ out.resonances.states.length := by
    obtain ⟨l, -⟩ := List.getElem?_eq_some_iff.1 (g1 (s.nvib - 1) (by omega)).1
    rw [hst]
    omega
  rw [← hst] at g0
  have he := rota_eq s.header (s.nvib + 1) s.rotcon R' out.resonances.states out.quartic hh hlen
  have hz := Option.some.inj (hrota.symm.trans he)
  have h00 : (reported (fun s => match s with | .i1st _ => true | _ => false) (s.nvib + 1)
      out.resonances.states)[0]? = some (0, .i1st (List.replicate s.nvib 0)) := by
    simp [reported, List.range_succ_eq_map, g0]
  obtain ⟨q1, q2, -, -, -, -, -, -, -, -, -, -, -, -, -, -, -, q18, q19, q20⟩ := quartic_asymm P.quart
  have tau := asym_tau P
  have hT : out.quartic.r6 = T := by
    rw [q2, tau 1 1 (by omega) (by omega), tau 2 2 (by omega) (by omega), tau 1 2 (by omega) (by omega)]
  have av : ∀ x < 3, R' 0 x = s.rotcon x + 1 / 2 * ∑ k ∈ range s.nvib, al k x := by
    intro x hx
    rw [(hav x hx).1, sum_congr rfl fun k hk => key k (mem_range.1 hk) x hx]
  refine ⟨_, by rw [hz, List.getElem?_map]; exact congrArg (Option.map _) h00, rfl, ?_, ?_, ?_⟩
  · dsimp only
    rw [q18, av 0 (by omega), hT]; ring
  · dsimp only
    rw [q19, av 1 (by omega), hT, q1]; ring
  · dsimp only
    rw [q20, av 2 (by omega), hT, q1]; ring

/-- C82, quartic distortion constants: the Nielsen constants and those of the A and S reductions from the constants `τ` of the
reported frequencies and modes; the axes 1, 2, 0 of the principal frame are x, y, z. -/
theorem c82_quartic (s : SpectroIn ℝ) (o : Oracles ℝ ι) (fc2 : Mat ℝ) (f3x : T3 ℝ) (f4x : T4 ℝ) (out : Output ℝ ι)
    (hr : s.rotor = .asymmTop) (hn : s.n3n = 3 * s.natom) (hv : s.nvib ≤ s.n3n) (h0 : 0 < s.nvib)
    (h3 : Symm3 s.n3n f3x) (h4 : Symm4 s.n3n f4x) (h : run s o (.quartic fc2 f3x f4x) = some out) :
    let q := out.quartic
    let P := tauPair (tauSpec s.nvib (entryOf out.harms) s.primat (inertiaField s.natom s.pos s.weights out.lxm))
    q.sigma = (2 * s.rotcon 0 - s.rotcon 1 - s.rotcon 2) / (s.rotcon 1 - s.rotcon 2) ∧
    q.r6 = (P 1 1 + P 2 2 - 2 * P 1 2) / 64 ∧
    q.djn = -(3 * P 1 1 + 3 * P 2 2 + 2 * P 1 2) / 32 ∧
    q.djkn = -(P 1 0 + P 2 0) / 4 - 2 * q.djn ∧
    q.dkn = -P 0 0 / 4 - q.djkn - q.djn ∧
    q.sdjn = -(P 1 1 - P 2 2) / 16 ∧
    2 * q.r5 = (P 1 0 - P 2 0) / 8 + q.sdjn ∧
    q.delj = q.djn - 2 * q.r6 ∧ q.deljk = q.djkn + 12 * q.r6 ∧ q.delk = q.dkn - 10 * q.r6 ∧
    q.sdelj = q.sdjn ∧ q.sdelk = -(2 * q.r5) - 4 * q.sigma * q.r6 ∧
    q.dj = q.djn + q.r5 / q.sigma ∧ q.djk = q.djkn - 6 * q.r5 / q.sigma ∧
    q.dk = q.dkn + 5 * q.r5 / q.sigma ∧ q.sd1 = -q.sdjn ∧
    q.sd2 = q.r6 + q.r5 / (2 * q.sigma) ∧
    q.bza = s.rotcon 0 + 16 * q.r6 ∧
    q.bxa = s.rotcon 1 - 8 * (q.sigma + 1) * q.r6 ∧
    q.bya = s.rotcon 2 + 8 * (q.sigma - 1) * q.r6 ∧
    q.rkappa = (2 * s.rotcon 1 - s.rotcon 0 - s.rotcon 2) / (s.rotcon 0 - s.rotcon 2) ∧
    q.bxs = s.rotcon 1 - 4 * q.r6 + (2 + 1 / q.sigma) * (2 * q.r5) ∧
    q.bys = s.rotcon 2 - 4 * q.r6 - (2 - 1 / q.sigma) * (2 * q.r5) ∧
    q.bzs = s.rotcon 0 + 6 * q.r6 - 5 * q.r5 / q.sigma := by
  intro q P
  obtain ⟨freq, F3, F4, zm, wila, A⟩ := asym_parts hr hn hv h0 h3 h4 h
  have hq := quartic_asymm A.quart
  have t := asym_tau A
  simp only [t 0 0 (by omega) (by omega), t 1 1 (by omega) (by omega), t 2 2 (by omega) (by omega),
    t 1 0 (by omega) (by omega), t 2 0 (by omega) (by omega), t 1 2 (by omega) (by omega)] at hq
  obtain ⟨q1, q2, q3, q4, q5, q6, q7, q8, q9, q10, q11, q12, q13, q14, q15, q16, q17, q18, q19, q20⟩ := hq
  exact ⟨q1, q2, q3, q4, q5, q6, q7, q8, q9, q10, q11, q12, q13, q14, q15, q16, q17, q18, q19, q20,
    quartic_asymm_s A.quart⟩

/-- A run that meets the hypotheses of the theorems of C82. -/
example : ∃ (fc2 : Mat ℝ) (f3x : T3 ℝ) (f4x : T4 ℝ) (out : Output ℝ Nat), exampleTop.rotor = .asymmTop ∧
    exampleTop.n3n = 3 * exampleTop.natom ∧ exampleTop.nvib ≤ exampleTop.n3n ∧ 0 < exampleTop.nvib ∧
    Symm3 exampleTop.n3n f3x ∧ Symm4 exampleTop.n3n f4x ∧ run exampleTop exactOracles2 (.quartic fc2 f3x f4x) = some out ∧
    (∀ c ∈ out.resonances.coriolis, ∀ c' ∈ out.resonances.coriolis, c.i = c'.i → c.j = c'.j → c.axis = c'.axis) ∧
    f3x 0 1 2 = 2 := by
  have s3 : Symm3 exampleTop.n3n fun _ _ _ => (2 : ℝ) := by intro a b c _ _ _; simp
  have s4 : Symm4 exampleTop.n3n fun _ _ _ _ => (3 : ℝ) := by intro a b c d _ _ _ _; simp
  obtain ⟨fc2, out, h, hw⟩ := spread_run (fun _ _ _ => 2) (fun _ _ _ _ => 3)
  obtain ⟨⟨-, hc⟩, -⟩ := c80_resonances _ _ _ _ _ _ rfl rfl (by decide) (by decide) s3 s4 h
  refine ⟨fc2, _, _, out, rfl, rfl, by decide, by decide, s3, s4, h, ?_, rfl⟩
  rintro ⟨i, j, a⟩ hm
  obtain ⟨hj, hi, -, hd, -⟩ := (hc i j a).1 hm
  have := hw i hi j (by omega) (by omega)
  linarith

end Verif
