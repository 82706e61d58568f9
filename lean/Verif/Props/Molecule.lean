import Verif.Lemmas.Molecule

/-!
# The results depend only on the molecule (C98)

`Description` and `SameMolecule` are in `Verif.Spec.Molecule`.
-/

namespace Verif

open Finset

variable {ι : Type}

/-- The description of the molecule in the input of a run. -/
def SpectroIn.description (s : SpectroIn ℝ) (fc2 : Mat ℝ) (f3x : T3 ℝ) (f4x : T4 ℝ) : Description :=
  ⟨s.axes, s.pos, s.weights, fc2, f3x, f4x⟩

/-- The input with another description of the molecule. The rotor, the moments of inertia, the rotational constants
and the options are kept. -/
def SpectroIn.describe (s : SpectroIn ℝ) (e : Description) : SpectroIn ℝ :=
  { s with axes := e.axes, pos := e.pos, weights := e.weights }

theorem wilsonA_large {nvib n : Nat} {pos : Nat → Nat → ℝ} {lxm : Mat ℝ} {w : Vec ℝ} (k c : Nat) (h : 6 ≤ c) :
    wilsonA nvib n pos lxm w k c = 0 := by
  unfold wilsonA
  simp [show c ≠ 0 by omega, show c ≠ 1 by omega, show c ≠ 2 by omega, show c ≠ 3 by omega, show c ≠ 4 by omega,
    show c ≠ 5 by omega, lit_real]

theorem same_output2 {s s' : SpectroIn ℝ} {o o' : Oracles ℝ ι} {f3x f3x' : T3 ℝ} {f4x f4x' : T4 ℝ} {out out' : Output ℝ ι}
    {freq : List ℝ} {F3 F3' : T3 ℝ} {F4 F4' : T4 ℝ} {zm zm' : T3 ℝ} {wila wila' : Mat ℝ}
    (P : AsymParts s o f3x f4x out freq F3 F4 zm wila) (P' : AsymParts s' o' f3x' f4x' out' freq F3' F4' zm' wila')
    (h1 : s'.nvib = s.nvib) (h2 : s'.i2vib = s.i2vib) (h3 : s'.rotcon = s.rotcon) (h4 : s'.primat = s.primat)
    (h5 : s'.header = s.header)
    (he : ∀ p v q, IsEigen2 p v q (o.eigen2 p v q)) (he' : ∀ p v q, IsEigen2 p v q (o'.eigen2 p v q))
    (σ ε : Nat → ℝ) (hσ : Signs σ) (hε : Signs ε) (hl : ∀ k c, 6 ≤ c → wila k c = 0)
    (e3 : F3' = fun i j k => σ i * σ j * σ k * F3 i j k)
    (e4 : F4' = fun i j k l => σ i * σ j * σ k * σ l * F4 i j k l)
    (ez : zm' = fun i j x => σ i * σ j * (turnSign ε x * zm i j x))
    (eA : wila' = fun k c => σ k * (packSign ε c * wila k c)) : SameResults out' out := by
  subst e3 e4 ez eA
  have er : out'.resonances = out.resonances := by
    have := P'.rest
    rw [h1, h2, reststNew_flip hσ _ _ (fun i j x => turnSign ε x * zm i j x), reststNew_axis hε, P.rest] at this
    exact (Option.some.inj this).symm
  have eq : out'.quartic = out.quartic := by
    have := P'.quart
    rw [h1, h3, h4, quartic_flip hσ _ _ _ _ _ (fun k c => packSign ε c * wila k c), quartic_axis hε _ _ _ _ _ hl,
      P.quart] at this
    exact (Option.some.inj this).symm
  obtain ⟨z, c⟩ := asym_corrected P he
  obtain ⟨z', c'⟩ := asym_corrected P' he'
  have ef := P.funds
  have ef' := P'.funds
  have xe : ∀ modes f1 f2, xcalc s'.nvib (fun i j k l => σ i * σ j * σ k * σ l * F4 i j k l) (vecOf freq)
      (fun i j k => σ i * σ j * σ k * F3 i j k) (fun i j x => σ i * σ j * (turnSign ε x * zm i j x)) s'.rotcon modes f1 f2 =
      xcalc s.nvib F4 (vecOf freq) F3 zm s.rotcon modes f1 f2 := by
    intro modes f1 f2
    rw [h1, h3, xcalc_flip hσ _ _ _ _ (fun i j x => turnSign ε x * zm i j x), xcalc_axis hε]
  rw [er, xe, h1] at z' c' ef'
  rw [pushed_flip hσ] at c'
  refine ⟨?_, ef'.trans ef.symm, c'.trans c.symm, z'.trans z.symm, ?_, eq, ?_, er, ?_⟩
  · have := P'.harms
    rw [h1] at this
    exact Option.some.inj (this.symm.trans P.harms)
  · obtain ⟨R, h1', h2'⟩ := P.rots
    obtain ⟨R', h1'', h2''⟩ := P'.rots
    rw [er, h1, h3, h4, alpha_flip hσ _ _ _ _ (fun k c => packSign ε c * wila k c)
      (fun i j x => turnSign ε x * zm i j x), alpha_axis hε, h1'] at h1''
    obtain rfl := Option.some.inj h1''
    rw [er, eq, h1, h3, h5, h2'] at h2''
    exact (Option.some.inj h2'').symm
  · rw [P'.sext, P.sext, h1, h3, h4, sextic_flip hσ _ _ _ _ _ _ (fun k c => packSign ε c * wila k c)
      (fun i j x => turnSign ε x * zm i j x), sextic_axis hε _ _ _ _ _ _ _ hl]
  · rw [P'.equil, P.equil, h3]

/-- C98: the results of a run depend only on the molecule. Two descriptions of the same asymmetric top, in differently
turned coordinate systems, with the atoms in a different order and the principal axes pointing in different directions,
lead to the same harmonic frequencies, fundamentals, corrected fundamentals, zero-point energy, rotational constants,
distortion constants and resonances, for any exact eigensolvers, when the vibrational frequencies are not degenerate. -/
theorem c98_same_molecule (s : SpectroIn ℝ) (e : Description) (o o' : Oracles ℝ ι) (fc2 : Mat ℝ) (f3x : T3 ℝ)
    (f4x : T4 ℝ) (out out' : Output ℝ ι) (R : Nat → Nat → ℝ) (order : Nat → Nat) (dir : Nat → ℝ)
    (M : SameMolecule s.natom (s.description fc2 f3x f4x) e R order dir)
    (hr : s.rotor = .asymmTop) (hn : s.n3n = 3 * s.natom) (hv : s.nvib ≤ s.n3n)
    (h0 : 0 < s.nvib) (hw : ∀ a < s.natom, 0 < s.weights a) (hax : Orthogonal3 s.axes) (hax' : Orthogonal3 e.axes)
    (h2 : Symm2 s.n3n fc2) (h3 : Symm3 s.n3n f3x) (h4 : Symm4 s.n3n f4x)
    (h2' : Symm2 s.n3n e.fc2) (h3' : Symm3 s.n3n e.fc3) (h4' : Symm4 s.n3n e.fc4)
    (he : ∀ m, Symm2 s.n3n m → IsEigen s.n3n m (o.eigen m)) (he' : ∀ m, Symm2 s.n3n m → IsEigen s.n3n m (o'.eigen m))
    (hp : ∀ p v q, IsEigen2 p v q (o.eigen2 p v q)) (hp' : ∀ p v q, IsEigen2 p v q (o'.eigen2 p v q))
    (h : run s o (.quartic fc2 f3x f4x) = some out)
    (h' : run (s.describe e) o' (.quartic e.fc2 e.fc3 e.fc4) = some out')
    (hs : ∀ i < s.nvib, SimpleMode s.n3n (waveUnit ^ 2 * FACT2) fc2 s.weights (entryOf out.harms i)
      (applyAxes s.axes (columnEntry out.lx i))) :
    SameResults out' out := by
  have hr' : (s.describe e).rotor = .asymmTop := hr
  obtain ⟨m, F4, hm, hF, t1, t2, P⟩ := asym_parts_modes hr hn hv h0 h3 h4 h
  obtain ⟨m', F4', hm', hF', t1', t2', P'⟩ := asym_parts_modes (s := s.describe e) hr hn hv h0 h3' h4' h'
  have hst : s.rotor.isSymTop = false := by rw [hr]; rfl
  have fh := P.harms
  have fh' : firstFreqs m'.freq s.nvib = some out'.harms := P'.harms
  have hw' : ∀ a < s.natom, 0 < e.weights a := fun a ha => by
    rw [M.weights a ha]
    exact hw _ (M.isOrder.1 a ha)
  have hdir : Signs dir := M.isDir
  -- the frequencies
  have ef : m'.freq = m.freq := by
    obtain ⟨a, -, -⟩ := runModes_asym hr hm
    obtain ⟨a', -, -⟩ := runModes_asym hr' hm'
    rw [a, a']
    congr 1
    have hsy := c10_symmetric s.n3n (fun i j => (FACT2 : ℝ) * rot2nd s.natom s.axes fc2 i j)
      (fun i => Arith.lit 1.0 / Arith.sqrt (s.weights i))
    have hsy' := c10_symmetric s.n3n (fun i j => (FACT2 : ℝ) * rot2nd s.natom e.axes e.fc2 i j)
      (fun i => Arith.lit 1.0 / Arith.sqrt (e.weights i))
    have rel : ∀ x < 3 * s.natom, ∀ y < 3 * s.natom, _ := fun x hx y hy => M.secular (by rw [← hn]; exact h2) hx hy
    rw [← hn] at rel
    show (symmEigenDecomp (o'.eigen (formSec s.n3n (fun i j => (FACT2 : ℝ) * rot2nd s.natom e.axes e.fc2 i j)
      (fun i => Arith.lit 1.0 / Arith.sqrt (e.weights i)))).1 _ true).1 = _
    have E := he _ fun a b _ _ => hsy a b
    have E' := he' _ fun a b _ _ => hsy' a b
    rw [hn] at E E' rel
    have T := eigen_perm E' (M.eigen rel E)
    rw [← hn] at T
    exact ((decomp_vals_perm _ _).trans (T.trans (decomp_vals_perm _ _).symm)).eq_of_pairwise
      (fun a b _ _ h1 h2 => le_antisymm h2 h1) (c11_sorted _ _).1 (c11_sorted _ _).1
  have eh : out'.harms = out.harms := by
    rw [ef, fh] at fh'
    exact (Option.some.inj fh').symm
  have hlen : out.harms.length = s.nvib := (c58_aligned _ _ _ _ _ out hst h).1
  obtain ⟨q, hq, qh, ql⟩ := harmonic_of_modes hm fh t1 t2
  obtain ⟨q', hq', qh', ql'⟩ := harmonic_of_modes hm' fh' t1' t2'
  obtain ⟨l, N⟩ := c75_normal_modes s o fc2 q hst hn hw hax h2 he hq
  obtain ⟨l', N'⟩ := c75_normal_modes (s.describe e) o' e.fc2 q' hst hn hw' hax' h2' he' hq'
  rw [qh, ql] at N
  rw [qh', ql', eh] at N'
  rw [ql] at l
  rw [ql'] at l'
  have col : ∀ (lx : List (List ℝ)), lx.length = s.n3n → ∀ i < s.nvib, ∃ d, lx[i]? = some d ∧ columnEntry lx i = vecOf d := by
    intro lx hlx i hi
    have hi : i < lx.length := by omega
    refine ⟨lx[i], List.getElem?_eq_getElem hi, ?_⟩
    funext r
    simp [columnEntry, vecOf, List.getD_eq_getElem?_getD, List.getElem?_eq_getElem hi, lit_real]
  -- the modes
  have one : ∀ i < s.nvib, ∃ k : ℝ, (k = 1 ∨ k = -1) ∧
      ∀ r < 3 * s.natom, columnEntry out'.lx i r = k * carried order dir (columnEntry out.lx i) r := by
    intro i hi
    have hw' : out.harms[i]? = some (entryOf out.harms i) := by
      rw [entryOf, List.getD_eq_getElem?_getD, List.getElem?_eq_getElem (by omega), Option.getD_some]
    obtain ⟨d, hd, ed⟩ := col _ l i hi
    obtain ⟨d', hd', ed'⟩ := col _ l' i hi
    obtain ⟨-, -, n1⟩ := N i _ d hw' hd
    obtain ⟨-, m1, n1'⟩ := N' i _ d' hw' hd'
    have n1 := n1 i d hd
    have n1' := n1' i d' hd'
    rw [if_pos rfl, ← ed, hn] at n1
    rw [if_pos rfl, ← ed'] at n1'
    rw [← ed'] at m1
    obtain ⟨u, hu⟩ := carried_surj M.isOrder hdir (columnEntry out'.lx i)
    have m2 := M.motion hax hax' hu (c := waveUnit ^ 2 * FACT2) (l := entryOf out.harms i * |entryOf out.harms i|)
      (by rw [← hn]; exact m1)
    rw [← hn] at m2
    obtain ⟨k, hk⟩ := hs i hi _ m2
    have n2 := M.norm hax hax' hu
    rw [hn] at hk
    replace n1' : massForm (3 * s.natom) e.weights (applyAxes e.axes (columnEntry out'.lx i))
      (applyAxes e.axes (columnEntry out'.lx i)) = 1 := by rw [← hn]; exact n1'
    rw [n1', massForm_scale _ _ _ _ k hk] at n2
    replace n2 : 1 = k ^ 2 * massForm (3 * s.natom) s.weights (applyAxes s.axes (columnEntry out.lx i))
      (applyAxes s.axes (columnEntry out.lx i)) := n2
    rw [n1, mul_one] at n2
    refine ⟨k, mul_self_eq_one_iff.1 (by linarith [pow_two k]), fun r hr' => ?_⟩
    have hur : ∀ y < 3 * s.natom, u y = k * columnEntry out.lx i y := by
      intro y hy
      rw [← applyAxes_back hax u y, ← applyAxes_back hax (columnEntry out.lx i) y, mul_sum]
      refine sum_congr rfl fun p hp => ?_
      have := mem_range.1 hp
      rw [show applyAxes s.axes u (3 * (y / 3) + p) = _ from hk (3 * (y / 3) + p) (by omega)]
      ring
    rw [hu r hr', carried, carried, hur _ ((coordOf_isOrder M.isOrder).1 r hr')]
    ring
  choose! κ hκ using one
  let σ : Nat → ℝ := fun j => if j < s.nvib then κ j else 1
  have hσ : Signs σ := fun j => by
    by_cases hj : j < s.nvib
    · simpa only [σ, if_pos hj] using (hκ j hj).1
    · exact .inl (if_neg hj)
  have hlx : ∀ x < 3 * s.natom, ∀ j < s.nvib, m'.lx x j = σ j * carried order dir (fun y => m.lx y j) x := by
    intro x hx j hj
    have e1 := (hκ j hj).2 x hx
    have hc := (coordOf_isOrder M.isOrder).1 x hx
    rw [carried, columnEntry_toVec t2 j _ (by omega) (by omega)] at e1
    rw [show columnEntry out'.lx j x = m'.lx x j from columnEntry_toVec t2' j x (by show j < s.n3n; omega)
      (by show x < s.n3n; omega)] at e1
    rw [e1, carried]
    simp only [σ, if_pos hj]
  have hl : ∀ x < 3 * s.natom, ∀ j < s.nvib, m'.lxm x j = σ j * carried order dir (fun y => m.lxm y j) x := by
    intro x hx j hj
    have e1 := hlx x hx j hj
    have hc := (coordOf_isOrder M.isOrder).1 x hx
    have a1 := congrFun (congrFun (runModes_asym hr' hm').2.2 x) j
    rw [makeLx_apply _ _ _ _ _ (show x < (s.describe e).n3n by show x < s.n3n; omega)
      (show j < (s.describe e).n3n by show j < s.n3n; omega), ← (runModes_asym hr' hm').2.1] at a1
    rw [a1, carried, (runModes_asym hr hm).2.2, makeLx_apply _ _ _ _ _ (show coordOf order x < s.n3n by omega)
      (show j < s.n3n by omega), ← (runModes_asym hr hm).2.1, coordOf_div] at e1
    have hpos := Real.sqrt_pos.2 (hw' (x / 3) (by omega))
    have h1 : ((1.0 : ℚ) : ℝ) = 1 := by norm_num
    have hwe : s.weights (order (x / 3)) = e.weights (x / 3) := (M.weights (x / 3) (by omega)).symm
    simp only [lit_real, sqrt_real, h1, hwe, SpectroIn.describe] at e1
    have hc : (1 / Real.sqrt (e.weights (x / 3))) ≠ 0 := by positivity
    refine mul_left_cancel₀ hc ?_
    rw [carried]
    linarith [e1]
  rw [ef] at hF' P'
  rw [hn] at hF h3 h4 h3' h4' P hv
  replace hF' : force4 (3 * s.natom) (rot4th (3 * s.natom) s.natom e.axes e.fc4) m'.lx s.nvib (vecOf m.freq) = some F4' := by
    rw [← hn]; exact hF'
  refine same_output2 P P' rfl rfl rfl rfl rfl hp hp' σ dir hσ hdir (fun k c h => wilsonA_large k c h) ?_
    (M.quartic h4 h4' hv h0 hlx hF hF') (M.zmat hl) (M.wila hax' hl)
  show f3Of (force3 s.n3n (rot3rd s.n3n s.natom e.axes e.fc3) m'.lx s.nvib (vecOf m.freq)) = _
  rw [hn]
  exact M.cubic h3 h3' hv _ hlx

/-! ### Other descriptions of a molecule -/

/-- The molecule `d` described after turning the coordinate system by `R`, with another order of the atoms and other
directions of the axes. -/
noncomputable def redescribed (n : Nat) (d : Description) (R : Nat → Nat → ℝ) (order : Nat → Nat) (dir : Nat → ℝ) :
    Description where
  axes := fun p q => dir q * ∑ u ∈ range 3, R p u * d.axes u q
  pos := fun a q => dir q * d.pos (order a) q
  weights := fun a => d.weights (order a)
  fc2 := rot2nd n (transposed R) fun x y => d.fc2 (coordOf order x) (coordOf order y)
  fc3 := rot3rd (3 * n) n (transposed R) fun x y z => d.fc3 (coordOf order x) (coordOf order y) (coordOf order z)
  fc4 := rot4th (3 * n) n (transposed R) fun x y z t =>
    d.fc4 (coordOf order x) (coordOf order y) (coordOf order z) (coordOf order t)

theorem moved_eq (R : Nat → Nat → ℝ) (order : Nat → Nat) (u : Nat → ℝ) :
    moved R order u = applyAxes R fun x => u (coordOf order x) := by
  funext x
  unfold moved applyAxes
  refine sum_congr rfl fun q hq => ?_
  dsimp only
  rw [coordOf_at _ _ _ (mem_range.1 hq)]

/-- Every orthogonal change of coordinates, order of the atoms and choice of the directions gives another description
of the same molecule. -/
theorem redescribed_same {n : Nat} (d : Description) {R : Nat → Nat → ℝ} {order : Nat → Nat} {dir : Nat → ℝ}
    (hR : Orthogonal3 R) (ho : IsOrder n order) (hd : ∀ q, dir q = 1 ∨ dir q = -1) :
    SameMolecule n d (redescribed n d R order dir) R order dir := by
  have hc := coordOf_isOrder ho
  have hs : ∀ q, dir q * dir q = 1 := Signs.sq hd
  refine ⟨ho, hd, fun _ _ => rfl, fun _ _ _ _ => rfl, fun a _ p _ => ?_, fun u v => ?_, fun u v w => ?_, fun u v w t => ?_⟩
  · simp only [redescribed, sum_mul, mul_sum]
    rw [sum_comm]
    refine sum_congr rfl fun r _ => sum_congr rfl fun q _ => ?_
    linear_combination (R p r * d.axes r q * d.pos (order a) q) * hs q
  · rw [moved_eq, moved_eq]
    simp only [redescribed]
    rw [c07_form, applyAxes_turnBack hR, applyAxes_turnBack hR]
    unfold form2
    conv_rhs => rw [← order_sum hc]
    refine sum_congr rfl fun x _ => ?_
    conv_rhs => rw [← order_sum hc]
  · rw [moved_eq, moved_eq, moved_eq]
    simp only [redescribed]
    rw [c08_form, applyAxes_turnBack hR, applyAxes_turnBack hR, applyAxes_turnBack hR]
    unfold form3
    conv_rhs => rw [← order_sum hc]
    refine sum_congr rfl fun x _ => ?_
    conv_rhs => rw [← order_sum hc]
    refine sum_congr rfl fun y _ => ?_
    conv_rhs => rw [← order_sum hc]
  · rw [moved_eq, moved_eq, moved_eq, moved_eq]
    simp only [redescribed]
    rw [c09_form, applyAxes_turnBack hR, applyAxes_turnBack hR, applyAxes_turnBack hR, applyAxes_turnBack hR]
    unfold form4
    conv_rhs => rw [← order_sum hc]
    refine sum_congr rfl fun x _ => ?_
    conv_rhs => rw [← order_sum hc]
    refine sum_congr rfl fun y _ => ?_
    conv_rhs => rw [← order_sum hc]
    refine sum_congr rfl fun z _ => ?_
    conv_rhs => rw [← order_sum hc]

theorem redescribed_symmetric {n : Nat} (d : Description) (R : Nat → Nat → ℝ) {order : Nat → Nat} (dir : Nat → ℝ)
    (ho : IsOrder n order) (h2 : Symm2 (3 * n) d.fc2) (h3 : Symm3 (3 * n) d.fc3) (h4 : Symm4 (3 * n) d.fc4) :
    Symm2 (3 * n) (redescribed n d R order dir).fc2 ∧ Symm3 (3 * n) (redescribed n d R order dir).fc3 ∧
      Symm4 (3 * n) (redescribed n d R order dir).fc4 := by
  have hc := coordOf_isOrder ho
  exact ⟨c07_symmetric n _ _ fun x y hx hy => h2 _ _ (hc.1 x hx) (hc.1 y hy),
    c08_symmetric n _ _ fun x y z hx hy hz => h3 _ _ _ (hc.1 x hx) (hc.1 y hy) (hc.1 z hz),
    c09_symmetric n _ _ fun x y z t hx hy hz ht => h4 _ _ _ _ (hc.1 x hx) (hc.1 y hy) (hc.1 z hz) (hc.1 t ht)⟩

/-- The first two atoms exchanged. -/
def exchanged : Nat → Nat := fun a => if a = 0 then 1 else if a = 1 then 0 else a

/-- The first axis reversed. -/
noncomputable def firstReversed : Nat → ℝ := fun q => if q = 0 then -1 else 1

/-- Runs that meet the hypotheses of `c98_same_molecule`: the coordinates are turned, two atoms are exchanged, the first
axis is reversed and one of the solvers reverses eigenvectors. -/
example (f3x : T3 ℝ) (f4x : T4 ℝ) (h3 : Symm3 exampleTop.n3n f3x) (h4 : Symm4 exampleTop.n3n f4x) :
    ∃ (fc2 : Mat ℝ) (e : Description) (out out' : Output ℝ Nat),
    SameMolecule exampleTop.natom (exampleTop.description fc2 f3x f4x) e turn345 exchanged firstReversed ∧
    exampleTop.rotor = .asymmTop ∧
    exampleTop.n3n = 3 * exampleTop.natom ∧ exampleTop.nvib ≤ exampleTop.n3n ∧ 0 < exampleTop.nvib ∧
    (∀ a < exampleTop.natom, 0 < exampleTop.weights a) ∧ Orthogonal3 exampleTop.axes ∧ Orthogonal3 e.axes ∧
    Symm2 exampleTop.n3n fc2 ∧ Symm3 exampleTop.n3n f3x ∧ Symm4 exampleTop.n3n f4x ∧
    Symm2 exampleTop.n3n e.fc2 ∧ Symm3 exampleTop.n3n e.fc3 ∧ Symm4 exampleTop.n3n e.fc4 ∧
    (∀ m, Symm2 exampleTop.n3n m → IsEigen exampleTop.n3n m (exactOracles2.eigen m)) ∧
    (∀ m, Symm2 exampleTop.n3n m → IsEigen exampleTop.n3n m (reversing.eigen m)) ∧
    (∀ p v q, IsEigen2 p v q (exactOracles2.eigen2 p v q)) ∧ (∀ p v q, IsEigen2 p v q (reversing.eigen2 p v q)) ∧
    run exampleTop exactOracles2 (.quartic fc2 f3x f4x) = some out ∧
    run (exampleTop.describe e) reversing (.quartic e.fc2 e.fc3 e.fc4) = some out' ∧
    e.axes 0 0 = -(3 / 5) ∧
    ∀ i < exampleTop.nvib, SimpleMode exampleTop.n3n (waveUnit ^ 2 * FACT2) fc2 exampleTop.weights
      (entryOf out.harms i) (applyAxes exampleTop.axes (columnEntry out.lx i)) := by
  obtain ⟨fc2, out, -, -, -, -, -, a1, a2, a3, -, -, a4, a5, a6, a7, r, -, hs⟩ := diagonal_runs f3x f4x h3 h4
  have ho : IsOrder exampleTop.natom exchanged := by
    refine ⟨fun a ha => ?_, fun a ha b hb => ?_⟩
    · have : a < 3 := ha
      show exchanged a < 3
      unfold exchanged
      split_ifs <;> omega
    · intro h
      unfold exchanged at h
      split_ifs at h <;> omega
  have S := redescribed_symmetric (exampleTop.description fc2 f3x f4x) turn345 firstReversed ho a3 h3 h4
  let e := redescribed exampleTop.natom (exampleTop.description fc2 f3x f4x) turn345 exchanged firstReversed
  obtain ⟨out', h'⟩ := Option.isSome_iff_exists.1 (c74_completes (exampleTop.describe e) reversing e.fc2 e.fc3 e.fc4 rfl
    (by show 0 < 3; decide) (by show 3 ≤ 9; decide)
    (show exampleTop.i2vib = exampleTop.nvib * (exampleTop.nvib + 1) / 2 from rfl) (show 2 < exampleTop.header.getD 7 4 by decide)
    (fun m => (exactOracles_eigen m).2) (fun p v q => (exactOracles2_eigen2 p v q).1) le_rfl)
  refine ⟨fc2, e, out, out', redescribed_same _ turn345_orthogonal ho ?_, rfl, rfl, by decide, by decide, a1, a2, ?_, a3,
    h3, h4, S.1, S.2.1, S.2.2, a4, a5, a6, a7, r, h', ?_, hs⟩
  · intro q
    unfold firstReversed
    split_ifs
    · exact .inr rfl
    · exact .inl rfl
  · refine ⟨?_, ?_⟩ <;> intro p q hp hq <;> interval_cases p <;> interval_cases q <;>
      norm_num [e, redescribed, SpectroIn.description, firstReversed, turn345, exampleTop, idAxes, sum_range_succ]
  · norm_num [e, redescribed, SpectroIn.description, firstReversed, turn345, exampleTop, idAxes, sum_range_succ]

end Verif
