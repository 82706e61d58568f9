import Verif.Lemmas.Flip
import Verif.Lemmas.WholeExample
import Mathlib.LinearAlgebra.Matrix.Charpoly.Basic
import Mathlib.LinearAlgebra.Matrix.NonsingularInverse

/-!
# The result does not depend on the choices of the eigensolver (C93)
-/

namespace Verif

open Finset

variable {ι : Type}

/-- The results of a run other than the mode matrices and the symmetry labels are the same. -/
def SameResults (a b : Output ℝ ι) : Prop :=
  a.harms = b.harms ∧ a.funds = b.funds ∧ a.corrs = b.corrs ∧ a.zpt = b.zpt ∧ a.rots = b.rots ∧
  a.quartic = b.quartic ∧ a.sextic = b.sextic ∧ a.resonances = b.resonances ∧ a.rotEquil = b.rotEquil

theorem same_output {s : SpectroIn ℝ} {o o' : Oracles ℝ ι} {f3x : T3 ℝ} {f4x : T4 ℝ} {out out' : Output ℝ ι}
    {freq : List ℝ} {F3 F3' : T3 ℝ} {F4 F4' : T4 ℝ} {zm zm' : T3 ℝ} {wila wila' : Mat ℝ}
    (P : AsymParts s o f3x f4x out freq F3 F4 zm wila) (P' : AsymParts s o' f3x f4x out' freq F3' F4' zm' wila')
    (he : ∀ p v q, IsEigen2 p v q (o.eigen2 p v q)) (he' : ∀ p v q, IsEigen2 p v q (o'.eigen2 p v q))
    (σ : Nat → ℝ) (hσ : Signs σ) (h3 : F3' = fun i j k => σ i * σ j * σ k * F3 i j k)
    (h4 : F4' = fun i j k l => σ i * σ j * σ k * σ l * F4 i j k l) (hz : zm' = fun i j x => σ i * σ j * zm i j x)
    (hA : wila' = fun k c => σ k * wila k c) : SameResults out' out := by
  subst h3 h4 hz hA
  have er : out'.resonances = out.resonances := by
    have := P'.rest
    rw [reststNew_flip hσ, P.rest] at this
    exact (Option.some.inj this).symm
  have eq : out'.quartic = out.quartic := by
    have := P'.quart
    rw [quartic_flip hσ, P.quart] at this
    exact (Option.some.inj this).symm
  obtain ⟨z, c⟩ := asym_corrected P he
  obtain ⟨z', c'⟩ := asym_corrected P' he'
  have ef := P.funds
  have ef' := P'.funds
  rw [er, xcalc_flip hσ] at z' c' ef'
  rw [pushed_flip hσ] at c'
  refine ⟨?_, ef'.trans ef.symm, c'.trans c.symm, z'.trans z.symm, ?_, eq, ?_, er, P'.equil.trans P.equil.symm⟩
  · exact Option.some.inj (P'.harms.symm.trans P.harms)
  · obtain ⟨R, h1, h2⟩ := P.rots
    obtain ⟨R', h1', h2'⟩ := P'.rots
    rw [er, alpha_flip hσ, h1] at h1'
    obtain rfl := Option.some.inj h1'
    rw [er, eq, h2] at h2'
    exact (Option.some.inj h2').symm
  · rw [P'.sext, P.sext, sextic_flip hσ]

theorem runModes_asym {s : SpectroIn ℝ} {o : Oracles ℝ ι} {fc2 : Mat ℝ} {m : ModesOut ℝ ι}
    (hr : s.rotor = .asymmTop) (h : runModes s o fc2 = some m) :
    let sqm : Vec ℝ := fun i => Arith.lit 1.0 / Arith.sqrt (s.weights i)
    let M := formSec s.n3n (fun i j => FACT2 * rot2nd s.natom s.axes fc2 i j) sqm
    let D := symmEigenDecomp (o.eigen M).1 (o.eigen M).2 true
    m.freq = toWavenumbers D.1 ∧ m.lxm = D.2 ∧ m.lx = makeLx s.n3n sqm D.2 := by
  intro sqm M D
  have hst : s.rotor.isSymTop = false := by rw [hr]; rfl
  unfold runModes at h
  simp only [runAlign, hst, Bool.false_eq_true, if_false, Option.bind_eq_bind, Option.bind_some,
    Option.bind_eq_some_iff] at h
  obtain ⟨irr, -, h⟩ := h
  obtain rfl := Option.some.inj h
  exact ⟨rfl, rfl, rfl⟩

theorem same_modes {s : SpectroIn ℝ} {o o' : Oracles ℝ ι} {fc2 : Mat ℝ} {f3x : T3 ℝ} {f4x : T4 ℝ}
    {out out' : Output ℝ ι} (hr : s.rotor = .asymmTop) (hn : s.n3n = 3 * s.natom) (hv : s.nvib ≤ s.n3n)
    (h0 : 0 < s.nvib) (h3 : Symm3 s.n3n f3x) (h4 : Symm4 s.n3n f4x)
    (he : ∀ p v q, IsEigen2 p v q (o.eigen2 p v q)) (he' : ∀ p v q, IsEigen2 p v q (o'.eigen2 p v q))
    (h : run s o (.quartic fc2 f3x f4x) = some out) (h' : run s o' (.quartic fc2 f3x f4x) = some out')
    (hf : ∀ m m', runModes s o fc2 = some m → runModes s o' fc2 = some m' →
      toVec s.n3n s.n3n m.lxm = some out.lxm → toVec s.n3n s.n3n m'.lxm = some out'.lxm →
      toVec s.n3n s.n3n m.lx = some out.lx → toVec s.n3n s.n3n m'.lx = some out'.lx →
      m'.freq = m.freq ∧ ∃ σ, Signs σ ∧ ∀ r < s.n3n, ∀ j < s.nvib, m'.lxm r j = σ j * m.lxm r j) :
    SameResults out' out := by
  obtain ⟨m, F4, hm, hF, t1, t2, P⟩ := asym_parts_modes hr hn hv h0 h3 h4 h
  obtain ⟨m', F4', hm', hF', t1', t2', P'⟩ := asym_parts_modes hr hn hv h0 h3 h4 h'
  obtain ⟨ef, σ, hσ, hl⟩ := hf m m' hm hm' t1 t1' t2 t2'
  have hlx : ∀ r < s.n3n, ∀ j < s.nvib, m'.lx r j = σ j * m.lx r j := by
    intro r hr' j hj
    rw [(runModes_asym hr hm).2.2, (runModes_asym hr hm').2.2, makeLx_apply _ _ _ _ _ hr' (by omega),
      makeLx_apply _ _ _ _ _ hr' (by omega), ← (runModes_asym hr hm).2.1, ← (runModes_asym hr hm').2.1, hl r hr' j hj]
    ring
  rw [ef] at hF' P'
  have s3 : Symm3 s.n3n (rot3rd s.n3n s.natom s.axes f3x) := by
    rw [hn] at h3 ⊢
    exact c08_symmetric _ _ _ h3
  have s4 : Symm4 s.n3n (rot4th s.n3n s.natom s.axes f4x) := by
    rw [hn] at h4 ⊢
    exact c09_symmetric _ _ _ h4
  exact same_output P P' he he' σ hσ (force3_flip s3 hv hlx) (force4_flip s4 hv h0 hlx hF hF')
    (makeZmat_flip fun r hr' j hj => hl r (by omega) j hj) (wilsonA_flip fun r hr' j hj => hl r (by omega) j hj)

/-- C93: two eigensolvers which return the same eigenvalues, and eigenvectors that differ only in their signs, lead to
the same harmonic frequencies, fundamentals, corrected fundamentals, zero-point energy, rotational constants,
distortion constants and resonances of an asymmetric top. -/
theorem c93_signs (s : SpectroIn ℝ) (o o' : Oracles ℝ ι) (fc2 : Mat ℝ) (f3x : T3 ℝ) (f4x : T4 ℝ)
    (out out' : Output ℝ ι) (hr : s.rotor = .asymmTop) (hn : s.n3n = 3 * s.natom) (hv : s.nvib ≤ s.n3n)
    (h0 : 0 < s.nvib) (h3 : Symm3 s.n3n f3x) (h4 : Symm4 s.n3n f4x)
    (he : ∀ p v q, IsEigen2 p v q (o.eigen2 p v q)) (he' : ∀ p v q, IsEigen2 p v q (o'.eigen2 p v q))
    (hval : ∀ M, (o'.eigen M).1 = (o.eigen M).1)
    (hvec : ∀ M j, (∀ i, (o'.eigen M).2 i j = (o.eigen M).2 i j) ∨ ∀ i, (o'.eigen M).2 i j = -(o.eigen M).2 i j)
    (h : run s o (.quartic fc2 f3x f4x) = some out) (h' : run s o' (.quartic fc2 f3x f4x) = some out') :
    SameResults out' out := by
  refine same_modes hr hn hv h0 h3 h4 he he' h h' ?_
  intro m m' hm hm' _ _ _ _
  obtain ⟨a, b, -⟩ := runModes_asym hr hm
  obtain ⟨a', b', -⟩ := runModes_asym hr hm'
  generalize formSec s.n3n (fun i j => FACT2 * rot2nd s.natom s.axes fc2 i j)
    (fun i => Arith.lit 1.0 / Arith.sqrt (s.weights i)) = M at a b a' b'
  obtain ⟨τ, hτ, hM⟩ : ∃ τ, Signs τ ∧ ∀ i j, (o'.eigen M).2 i j = τ j * (o.eigen M).2 i j := by
    classical
    refine ⟨fun j => if ∀ i, (o'.eigen M).2 i j = (o.eigen M).2 i j then 1 else -1, fun j => ?_, fun i j => ?_⟩
    · by_cases hc : ∀ i, (o'.eigen M).2 i j = (o.eigen M).2 i j
      · exact .inl (if_pos hc)
      · exact .inr (if_neg hc)
    · dsimp only
      by_cases hc : ∀ i, (o'.eigen M).2 i j = (o.eigen M).2 i j
      · rw [if_pos hc, hc i, one_mul]
      · rw [if_neg hc, ((hvec M j).resolve_left hc) i, neg_one_mul]
  refine ⟨by rw [a, a', symmEigenDecomp, symmEigenDecomp, hval M],
    fun j => τ ((((o.eigen M).1.zipIdx.mergeSort (eigenLe true)).map (·.2)).getD j 0), fun j => hτ _, fun r _ j _ => ?_⟩
  rw [b, b', symmEigenDecomp, symmEigenDecomp, hval M]
  exact hM _ _

/-- A solver which reverses every second eigenvector. -/
noncomputable def reversing : Oracles ℝ Nat :=
  { exactOracles2 with eigen := fun M => ((exactOracles2.eigen M).1,
      fun i j => if j % 2 = 0 then -(exactOracles2.eigen M).2 i j else (exactOracles2.eigen M).2 i j) }

/-- Runs that meet the hypotheses of `c93_signs`. -/
example : ∃ (fc2 : Mat ℝ) (f3x : T3 ℝ) (f4x : T4 ℝ) (out out' : Output ℝ Nat), exampleTop.rotor = .asymmTop ∧
    exampleTop.n3n = 3 * exampleTop.natom ∧ exampleTop.nvib ≤ exampleTop.n3n ∧ 0 < exampleTop.nvib ∧
    Symm3 exampleTop.n3n f3x ∧ Symm4 exampleTop.n3n f4x ∧
    (∀ p v q, IsEigen2 p v q (exactOracles2.eigen2 p v q)) ∧ (∀ p v q, IsEigen2 p v q (reversing.eigen2 p v q)) ∧
    (∀ M, (reversing.eigen M).1 = (exactOracles2.eigen M).1) ∧
    (∀ M j, (∀ i, (reversing.eigen M).2 i j = (exactOracles2.eigen M).2 i j) ∨
      ∀ i, (reversing.eigen M).2 i j = -(exactOracles2.eigen M).2 i j) ∧
    run exampleTop exactOracles2 (.quartic fc2 f3x f4x) = some out ∧
    run exampleTop reversing (.quartic fc2 f3x f4x) = some out' ∧
    cubicField exampleTop.n3n exampleTop.axes f3x (entryOf out.harms) out.lx 0 1 2 = 70 := by
  obtain ⟨fc2, f3x, f4x, out, h3, h4, h, hw, hF⟩ := equal_run 100 70 (by norm_num)
  obtain ⟨out', h'⟩ := Option.isSome_iff_exists.1 (c74_completes exampleTop reversing fc2 f3x f4x rfl (by decide)
    (by decide) rfl (by decide) (fun m => (exactOracles_eigen m).2) (fun p v q => (exactOracles2_eigen2 p v q).1) le_rfl)
  refine ⟨fc2, f3x, f4x, out, out', rfl, rfl, by decide, by decide, h3, h4, exactOracles2_eigen2, exactOracles2_eigen2,
    fun _ => rfl, fun M j => ?_, h, h', hF 0 1 2 (by decide) (by decide) (by decide)⟩
  by_cases hj : j % 2 = 0
  · exact .inr fun i => if_pos hj
  · exact .inl fun i => if_neg hj

/-! ### Solvers that are exact -/

/-- The eigenvalues of a symmetric matrix are determined up to their order. -/
theorem eigen_perm {n : Nat} {M : Nat → Nat → ℝ} {r r' : List ℝ × (Nat → Nat → ℝ)} (h : IsEigen n M r)
    (h' : IsEigen n M r') : r.1.Perm r'.1 := by
  classical
  let A : Matrix (Fin n) (Fin n) ℝ := fun i j => M i j
  have key : ∀ r : List ℝ × (Nat → Nat → ℝ), IsEigen n M r → A.charpoly.roots = (r.1 : Multiset ℝ) := by
    rintro ⟨vals, vecs⟩ ⟨hl, ho, he⟩
    dsimp only at hl ho he
    subst hl
    let V : Matrix (Fin vals.length) (Fin vals.length) ℝ := fun i j => vecs i j
    have hV : V.transpose * V = 1 := by
      ext i j
      rw [Matrix.mul_apply, Matrix.one_apply]
      have := ho i j i.2 j.2
      rw [sum_range] at this
      show ∑ x : Fin vals.length, vecs x i * vecs x j = _
      rw [this]
      simp only [Fin.ext_iff]
    have hV' : V * V.transpose = 1 := mul_eq_one_comm.1 hV
    have hAV : A * V = V * Matrix.diagonal fun i => vals.get i := by
      ext i j
      rw [Matrix.mul_apply, Matrix.mul_diagonal]
      have := he j (vals.get j) (by simp) i i.2
      rw [sum_range] at this
      simp only [A, V, this, mul_comm]
    have hA : A = V * ((Matrix.diagonal fun i => vals.get i) * V.transpose) := by
      rw [← mul_assoc, ← hAV, mul_assoc, hV', mul_one]
    rw [hA, Matrix.charpoly_mul_comm, mul_assoc, hV, mul_one, Matrix.charpoly_diagonal]
    have : (∏ i : Fin vals.length, (Polynomial.X - Polynomial.C (vals.get i))) =
        ((vals : Multiset ℝ).map fun a => Polynomial.X - Polynomial.C a).prod := by
      rw [Multiset.map_coe, Multiset.prod_coe, ← List.prod_ofFn]
      congr 1
      conv_rhs => rw [← List.ofFn_get vals, List.map_ofFn]
      rfl
    rw [this, Polynomial.roots_multiset_prod_X_sub_C]
  exact Multiset.coe_eq_coe.1 ((key r h).symm.trans (key r' h'))

theorem decomp_vals_perm (vals : List ℝ) (vecs : Mat ℝ) : (symmEigenDecomp vals vecs true).1.Perm vals := by
  have h := (List.mergeSort_perm vals.zipIdx (eigenLe true)).map (·.1)
  rwa [List.zipIdx_map_fst] at h

/-- The frequency of mode `d` is not shared with another displacement: every solution `u` of the equations of motion
with this frequency is a multiple of `d`. -/
def SimpleMode (n : Nat) (c : ℝ) (H : Nat → Nat → ℝ) (mass : Nat → ℝ) (w : ℝ) (d : Nat → ℝ) : Prop :=
  ∀ u : Nat → ℝ, (∀ t : Nat → ℝ, c * form2 n H t u = w * |w| * massForm n mass t u) → ∃ k, ∀ r < n, u r = k * d r

theorem applyAxes_back {axes : Nat → Nat → ℝ} (h : Orthogonal3 axes) (u : Nat → ℝ) (x : Nat) :
    ∑ p ∈ range 3, axes p (x % 3) * applyAxes axes u (3 * (x / 3) + p) = u x := by
  have hx : x % 3 < 3 := Nat.mod_lt _ (by omega)
  have e : ∀ p ∈ range 3, axes p (x % 3) * applyAxes axes u (3 * (x / 3) + p) =
      ∑ q ∈ range 3, axes p (x % 3) * axes p q * u (3 * (x / 3) + q) := by
    intro p hp
    have hp := mem_range.1 hp
    rw [applyAxes, mul_sum, show (3 * (x / 3) + p) % 3 = p by omega, show (3 * (x / 3) + p) / 3 = x / 3 by omega]
    exact sum_congr rfl fun q _ => by ring
  rw [sum_congr rfl e, sum_comm]
  have e2 : ∀ q ∈ range 3, ∑ p ∈ range 3, axes p (x % 3) * axes p q * u (3 * (x / 3) + q) =
      if x % 3 = q then u (3 * (x / 3) + q) else 0 := by
    intro q hq
    rw [← sum_mul, h.1 (x % 3) q hx (mem_range.1 hq)]
    split <;> simp
  rw [sum_congr rfl e2, sum_ite_eq, if_pos (mem_range.2 hx)]
  congr 1
  omega

theorem harmonic_of_modes {s : SpectroIn ℝ} {o : Oracles ℝ ι} {fc2 : Mat ℝ} {m : ModesOut ℝ ι} {out : Output ℝ ι}
    (hm : runModes s o fc2 = some m) (hf : firstFreqs m.freq s.nvib = some out.harms)
    (t1 : toVec s.n3n s.n3n m.lxm = some out.lxm) (t2 : toVec s.n3n s.n3n m.lx = some out.lx) :
    ∃ q, run s o (.harmonic fc2) = some q ∧ q.harms = out.harms ∧ q.lx = out.lx := by
  unfold run
  simp only [Derivative.fc2, hm, Option.bind_eq_bind, Option.bind_some, hf, t1, t2]
  exact ⟨_, rfl, rfl, rfl⟩

theorem massForm_scale (n : Nat) (mass : Nat → ℝ) (u v : Nat → ℝ) (k : ℝ) (h : ∀ r < n, u r = k * v r) :
    massForm n mass u u = k ^ 2 * massForm n mass v v := by
  rw [massForm, massForm, mul_sum]
  refine sum_congr rfl fun x hx => ?_
  rw [h x (mem_range.1 hx)]
  ring

/-- C93: any two eigensolvers that solve the secular equations and the two-level problems exactly lead to the same
results, for an asymmetric top whose vibrational frequencies are not degenerate. -/
theorem c93_solver (s : SpectroIn ℝ) (o o' : Oracles ℝ ι) (fc2 : Mat ℝ) (f3x : T3 ℝ) (f4x : T4 ℝ)
    (out out' : Output ℝ ι) (hr : s.rotor = .asymmTop) (hn : s.n3n = 3 * s.natom) (hv : s.nvib ≤ s.n3n)
    (h0 : 0 < s.nvib) (hw : ∀ a < s.natom, 0 < s.weights a) (hax : Orthogonal3 s.axes) (h2 : Symm2 s.n3n fc2)
    (h3 : Symm3 s.n3n f3x) (h4 : Symm4 s.n3n f4x)
    (he : ∀ m, Symm2 s.n3n m → IsEigen s.n3n m (o.eigen m)) (he' : ∀ m, Symm2 s.n3n m → IsEigen s.n3n m (o'.eigen m))
    (hp : ∀ p v q, IsEigen2 p v q (o.eigen2 p v q)) (hp' : ∀ p v q, IsEigen2 p v q (o'.eigen2 p v q))
    (h : run s o (.quartic fc2 f3x f4x) = some out) (h' : run s o' (.quartic fc2 f3x f4x) = some out')
    (hs : ∀ i < s.nvib, SimpleMode s.n3n (waveUnit ^ 2 * FACT2) fc2 s.weights (entryOf out.harms i)
      (applyAxes s.axes (columnEntry out.lx i))) :
    SameResults out' out := by
  refine same_modes hr hn hv h0 h3 h4 hp hp' h h' ?_
  intro m m' hm hm' t1 t1' t2 t2'
  have hst : s.rotor.isSymTop = false := by rw [hr]; rfl
  have fh : firstFreqs m.freq s.nvib = some out.harms := by
    obtain ⟨m₂, F4, hm₂, -, -, -, P⟩ := asym_parts_modes hr hn hv h0 h3 h4 h
    obtain rfl := Option.some.inj (hm.symm.trans hm₂)
    exact P.harms
  have fh' : firstFreqs m'.freq s.nvib = some out'.harms := by
    obtain ⟨m₂, F4, hm₂, -, -, -, P⟩ := asym_parts_modes hr hn hv h0 h3 h4 h'
    obtain rfl := Option.some.inj (hm'.symm.trans hm₂)
    exact P.harms
  -- the frequencies
  have ef : m'.freq = m.freq := by
    obtain ⟨a, -, -⟩ := runModes_asym hr hm
    obtain ⟨a', -, -⟩ := runModes_asym hr hm'
    rw [a, a']
    congr 1
    have hsy := c10_symmetric s.n3n (fun i j => (FACT2 : ℝ) * rot2nd s.natom s.axes fc2 i j)
      (fun i => Arith.lit 1.0 / Arith.sqrt (s.weights i))
    generalize formSec s.n3n (fun i j => (FACT2 : ℝ) * rot2nd s.natom s.axes fc2 i j)
      (fun i => Arith.lit 1.0 / Arith.sqrt (s.weights i)) = M at hsy
    have hperm : (symmEigenDecomp (o'.eigen M).1 (o'.eigen M).2 true).1.Perm
        (symmEigenDecomp (o.eigen M).1 (o.eigen M).2 true).1 :=
      (decomp_vals_perm _ _).trans ((eigen_perm (he' M fun a b _ _ => hsy a b) (he M fun a b _ _ => hsy a b)).trans
        (decomp_vals_perm _ _).symm)
    exact hperm.eq_of_pairwise (fun a b _ _ h1 h2 => le_antisymm h2 h1) (c11_sorted _ _).1 (c11_sorted _ _).1
  refine ⟨ef, ?_⟩
  have eh : out'.harms = out.harms := by
    rw [ef, fh] at fh'
    exact (Option.some.inj fh').symm
  have hlen : out.harms.length = s.nvib := (c58_aligned _ _ _ _ _ out hst h).1
  obtain ⟨q, hq, qh, ql⟩ := harmonic_of_modes hm fh t1 t2
  obtain ⟨q', hq', qh', ql'⟩ := harmonic_of_modes hm' fh' t1' t2'
  obtain ⟨l, N⟩ := c75_normal_modes s o fc2 q hst hn hw hax h2 he hq
  obtain ⟨l', N'⟩ := c75_normal_modes s o' fc2 q' hst hn hw hax h2 he' hq'
  rw [qh, ql] at N
  rw [qh', ql', eh] at N'
  rw [ql] at l
  rw [ql'] at l'
  have col : ∀ (lx : List (List ℝ)), lx.length = s.n3n → ∀ i < s.nvib, ∃ d, lx[i]? = some d ∧ columnEntry lx i = vecOf d := by
    intro lx hlx i hi
    have hi : i < lx.length := by omega
    refine ⟨lx[i], List.getElem?_eq_getElem hi, ?_⟩
    funext r
    simp [columnEntry, vecOf, List.getD_eq_getElem?_getD, List.getElem?_eq_getElem hi, lit_real]
  have one : ∀ i < s.nvib, ∃ k : ℝ, (k = 1 ∨ k = -1) ∧ ∀ r < s.n3n, columnEntry out'.lx i r = k * columnEntry out.lx i r := by
    intro i hi
    have hw' : out.harms[i]? = some (entryOf out.harms i) := by
      rw [entryOf, List.getD_eq_getElem?_getD, List.getElem?_eq_getElem (by omega), Option.getD_some]
    obtain ⟨d, hd, ed⟩ := col _ l i hi
    obtain ⟨d', hd', ed'⟩ := col _ l' i hi
    obtain ⟨-, -, n1⟩ := N i _ d hw' hd
    obtain ⟨-, m1, n1'⟩ := N' i _ d' hw' hd'
    have n1 := n1 i d hd
    have n1' := n1' i d' hd'
    rw [if_pos rfl, ← ed] at n1
    rw [if_pos rfl, ← ed'] at n1'
    rw [← ed'] at m1
    obtain ⟨k, hk⟩ := hs i hi _ m1
    rw [massForm_scale _ _ _ _ k hk, n1, mul_one] at n1'
    refine ⟨k, mul_self_eq_one_iff.1 (by linarith [pow_two k]), fun r hr' => ?_⟩
    rw [← applyAxes_back hax (columnEntry out'.lx i) r, ← applyAxes_back hax (columnEntry out.lx i) r, mul_sum]
    refine sum_congr rfl fun p hp => ?_
    have := mem_range.1 hp
    rw [hk (3 * (r / 3) + p) (by omega)]
    ring
  choose! κ hκ using one
  refine ⟨fun j => if j < s.nvib then κ j else 1, fun j => ?_, fun r hr' j hj => ?_⟩
  · by_cases hj : j < s.nvib
    · simpa only [if_pos hj] using (hκ j hj).1
    · exact .inl (if_neg hj)
  · dsimp only
    rw [if_pos hj]
    have e := (hκ j hj).2 r hr'
    rw [columnEntry_toVec t2 j r (by omega) hr', columnEntry_toVec t2' j r (by omega) hr',
      (runModes_asym hr hm).2.2, (runModes_asym hr hm').2.2, makeLx_apply _ _ _ _ _ hr' (by omega),
      makeLx_apply _ _ _ _ _ hr' (by omega), ← (runModes_asym hr hm).2.1, ← (runModes_asym hr hm').2.1] at e
    have hpos := Real.sqrt_pos.2 (hw (r / 3) (by omega))
    have h1 : ((1.0 : ℚ) : ℝ) = 1 := by norm_num
    simp only [lit_real, sqrt_real, h1] at e
    have hc : (1 / Real.sqrt (s.weights (r / 3))) ≠ 0 := by positivity
    refine mul_left_cancel₀ hc ?_
    linarith [e]

/-- A solution of the equations of motion of a diagonal Hessian with unit masses moves only the coordinates which have
its frequency. -/
theorem diagonal_motion {n : Nat} {c : ℝ} {D : Nat → ℝ} {l : ℝ} {u : Nat → ℝ}
    (h : ∀ t : Nat → ℝ, c * form2 n (fun i j => if i = j then D i else 0) t u = l * massForm n (fun _ => 1) t u) :
    ∀ x < n, u x ≠ 0 → c * D x = l := by
  intro x hx hu
  have e := h fun y => if y = x then 1 else 0
  rw [massForm, form2] at e
  simp only [ite_mul, zero_mul, sum_ite_eq, mem_range, one_mul, mul_ite, mul_one, mul_zero] at e
  rw [sum_ite_eq' (range n) x] at e
  simp only [mem_range, hx, if_true] at e
  rw [sum_eq_single x] at e
  · simp only [if_true, sum_ite_eq, if_pos (mem_range.2 hx)] at e
    exact mul_right_cancel₀ hu (by linarith)
  · intro b hb hne
    simp [hne]
  · intro hc
    exact absurd (mem_range.2 hx) hc

theorem simple_of_diagonal {n : Nat} {c : ℝ} {D : Nat → ℝ} {w : ℝ} {d : Nat → ℝ}
    (hD : ∀ x < n, ∀ y < n, c * D x = c * D y → x = y)
    (h : ∀ t : Nat → ℝ, c * form2 n (fun i j => if i = j then D i else 0) t d = w * |w| * massForm n (fun _ => 1) t d)
    (h1 : massForm n (fun _ => 1) d d = 1) :
    SimpleMode n c (fun i j => if i = j then D i else 0) (fun _ => 1) w d := by
  intro u hu
  obtain ⟨x, hx, hd⟩ : ∃ x < n, d x ≠ 0 := by
    by_contra hc
    push Not at hc
    rw [massForm, sum_eq_zero] at h1
    · exact absurd h1 (by norm_num)
    · intro x hx
      rw [hc x (mem_range.1 hx)]
      ring
  have hw := diagonal_motion h x hx hd
  refine ⟨u x / d x, fun r hr => ?_⟩
  by_cases e : r = x
  · subst e
    field_simp
  · have z1 : d r = 0 := by
      by_contra hc
      exact e (hD r hr x hx ((diagonal_motion h r hr hc).trans hw.symm))
    have z2 : u r = 0 := by
      by_contra hc
      exact e (hD r hr x hx ((diagonal_motion hu r hr hc).trans hw.symm))
    rw [z1, z2, mul_zero]

theorem diagonal_runs (f3x : T3 ℝ) (f4x : T4 ℝ) (h3 : Symm3 exampleTop.n3n f3x) (h4 : Symm4 exampleTop.n3n f4x) :
    ∃ (fc2 : Mat ℝ) (out out' : Output ℝ Nat), exampleTop.rotor = .asymmTop ∧
    exampleTop.n3n = 3 * exampleTop.natom ∧ exampleTop.nvib ≤ exampleTop.n3n ∧ 0 < exampleTop.nvib ∧
    (∀ a < exampleTop.natom, 0 < exampleTop.weights a) ∧ Orthogonal3 exampleTop.axes ∧ Symm2 exampleTop.n3n fc2 ∧
    Symm3 exampleTop.n3n f3x ∧ Symm4 exampleTop.n3n f4x ∧
    (∀ m, Symm2 exampleTop.n3n m → IsEigen exampleTop.n3n m (exactOracles2.eigen m)) ∧
    (∀ m, Symm2 exampleTop.n3n m → IsEigen exampleTop.n3n m (reversing.eigen m)) ∧
    (∀ p v q, IsEigen2 p v q (exactOracles2.eigen2 p v q)) ∧ (∀ p v q, IsEigen2 p v q (reversing.eigen2 p v q)) ∧
    run exampleTop exactOracles2 (.quartic fc2 f3x f4x) = some out ∧
    run exampleTop reversing (.quartic fc2 f3x f4x) = some out' ∧
    ∀ i < exampleTop.nvib, SimpleMode exampleTop.n3n (waveUnit ^ 2 * FACT2) fc2 exampleTop.weights
      (entryOf out.harms i) (applyAxes exampleTop.axes (columnEntry out.lx i)) := by
  have hK : 0 < waveUnit ^ 2 * (FACT2 : ℝ) := by
    have := waveUnit_pos
    have := fact2_pos
    positivity
  let fc2 : Mat ℝ := fun i j => if i = j then ((i : ℝ) + 1) else 0
  obtain ⟨out, h⟩ := Option.isSome_iff_exists.1 (c74_completes exampleTop exactOracles2 fc2 f3x f4x rfl (by decide)
    (by decide) rfl (by decide) (fun m => (exactOracles_eigen m).2) (fun p v q => (exactOracles2_eigen2 p v q).1) le_rfl)
  obtain ⟨out', h'⟩ := Option.isSome_iff_exists.1 (c74_completes exampleTop reversing fc2 f3x f4x rfl (by decide)
    (by decide) rfl (by decide) (fun m => (exactOracles_eigen m).2) (fun p v q => (exactOracles2_eigen2 p v q).1) le_rfl)
  have horth : Orthogonal3 exampleTop.axes := by
    refine ⟨?_, ?_⟩
    · intro p q hp hq
      interval_cases p <;> interval_cases q <;> simp [exampleTop, idAxes]
    · intro p q hp hq
      interval_cases p <;> interval_cases q <;> simp [exampleTop, idAxes]
  have hsym : Symm2 exampleTop.n3n fc2 := by
    intro a b _ _
    simp only [fc2]
    by_cases h : a = b
    · subst h; rfl
    · rw [if_neg h, if_neg (Ne.symm h)]
  have hwt : ∀ a < exampleTop.natom, (0 : ℝ) < exampleTop.weights a := by simp [exampleTop]
  have hex : ∀ m, Symm2 exampleTop.n3n m → IsEigen exampleTop.n3n m (exactOracles2.eigen m) :=
    fun m hs => (exactOracles_eigen m).1 hs
  refine ⟨fc2, out, out', rfl, rfl, by decide, by decide, hwt, horth, hsym, h3, h4, hex, ?_, exactOracles2_eigen2,
    exactOracles2_eigen2, h, h', ?_⟩
  · intro m hs
    obtain ⟨a, b, c⟩ := hex m hs
    refine ⟨a, ?_, ?_⟩
    · intro i j hi hj
      have := b i j hi hj
      have g : ∀ x, (reversing.eigen m).2 x i * (reversing.eigen m).2 x j =
          (if i % 2 = 0 then -1 else 1) * (if j % 2 = 0 then -1 else 1) *
            ((exactOracles2.eigen m).2 x i * (exactOracles2.eigen m).2 x j) := by
        intro x
        simp only [reversing]
        split <;> split <;> ring
      simp only [g]
      rw [← mul_sum, this]
      by_cases e : i = j
      · subst e
        simp only [if_true]
        split <;> norm_num
      · simp [e]
    · intro i l hi x hx
      have := c i l hi x hx
      simp only [reversing]
      by_cases e : i % 2 = 0
      · simp only [e, if_true, mul_neg, sum_neg_distrib, this]
      · simp only [e, if_false, this]
  · obtain ⟨m, F4, hm, -, t1, t2, P⟩ := asym_parts_modes rfl rfl (by decide) (by decide) h3 h4 h
    obtain ⟨q, hq, qh, ql⟩ := harmonic_of_modes hm P.harms t1 t2
    obtain ⟨l, N⟩ := c75_normal_modes exampleTop exactOracles2 fc2 q rfl rfl hwt horth hsym hex hq
    rw [qh, ql] at N
    rw [ql] at l
    have hlen := (c58_aligned _ _ _ _ _ out rfl h).1
    intro i hi
    have h9 : i < exampleTop.n3n := lt_of_lt_of_le hi (by decide)
    have hi' : i < out.lx.length := by omega
    have ed : columnEntry out.lx i = vecOf out.lx[i] := by
      funext r
      simp [columnEntry, vecOf, List.getD_eq_getElem?_getD, List.getElem?_eq_getElem hi', lit_real]
    obtain ⟨-, a, b⟩ := N i (entryOf out.harms i) _ (by
      rw [entryOf, List.getD_eq_getElem?_getD, List.getElem?_eq_getElem (by omega), Option.getD_some])
      (List.getElem?_eq_getElem hi')
    have b := b i _ (List.getElem?_eq_getElem hi')
    rw [if_pos rfl, ← ed] at b
    rw [← ed] at a
    refine simple_of_diagonal (fun x _ y _ e => ?_) a b
    have := mul_left_cancel₀ hK.ne' e
    exact_mod_cast add_right_cancel this

/-- Runs that meet the hypotheses of `c93_solver`. -/
example (f3x : T3 ℝ) (f4x : T4 ℝ) (h3 : Symm3 exampleTop.n3n f3x) (h4 : Symm4 exampleTop.n3n f4x) :
    ∃ (fc2 : Mat ℝ) (out out' : Output ℝ Nat), exampleTop.rotor = .asymmTop ∧
    exampleTop.n3n = 3 * exampleTop.natom ∧ exampleTop.nvib ≤ exampleTop.n3n ∧ 0 < exampleTop.nvib ∧
    (∀ a < exampleTop.natom, 0 < exampleTop.weights a) ∧ Orthogonal3 exampleTop.axes ∧ Symm2 exampleTop.n3n fc2 ∧
    Symm3 exampleTop.n3n f3x ∧ Symm4 exampleTop.n3n f4x ∧
    (∀ m, Symm2 exampleTop.n3n m → IsEigen exampleTop.n3n m (exactOracles2.eigen m)) ∧
    (∀ m, Symm2 exampleTop.n3n m → IsEigen exampleTop.n3n m (reversing.eigen m)) ∧
    (∀ p v q, IsEigen2 p v q (exactOracles2.eigen2 p v q)) ∧ (∀ p v q, IsEigen2 p v q (reversing.eigen2 p v q)) ∧
    run exampleTop exactOracles2 (.quartic fc2 f3x f4x) = some out ∧
    run exampleTop reversing (.quartic fc2 f3x f4x) = some out' ∧
    ∀ i < exampleTop.nvib, SimpleMode exampleTop.n3n (waveUnit ^ 2 * FACT2) fc2 exampleTop.weights
      (entryOf out.harms i) (applyAxes exampleTop.axes (columnEntry out.lx i)) :=
  diagonal_runs f3x f4x h3 h4

end Verif
