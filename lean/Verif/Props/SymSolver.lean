import Verif.Lemmas.SymModes

/-!
# Symmetric tops and linear molecules: normal modes, and the choices of the eigensolver (C100)
-/

namespace Verif

open Finset

variable {ι : Type}

/-- Modes closer than `tol` have the same frequency. -/
def Separated (nvib : Nat) (tol : ℝ) (w : Nat → ℝ) : Prop :=
  ∀ i j, i < nvib → j < nvib → |w i - w j| < tol → w i = w j

theorem harmonic_facts {s : SpectroIn ℝ} {o : Oracles ℝ ι} {fc2 : Mat ℝ} {q : Output ℝ ι}
    (hq : run s o (.harmonic fc2) = some q) : ∃ m, runModes s o fc2 = some m ∧
      toVec s.n3n s.n3n m.lxm = some q.lxm ∧ toVec s.n3n s.n3n m.lx = some q.lx ∧
      q.harms.length = s.nvib ∧ ∀ i < s.nvib, vecOf m.freq i = entryOf q.harms i := by
  obtain ⟨m, v, v', harms, hm, h1, h2, h3, rfl⟩ := run_harmonic hq
  unfold firstFreqs at h1
  split at h1
  · cases h1
  next hl =>
  obtain rfl := Option.some.inj h1
  refine ⟨m, hm, h2, h3, by simp; omega, fun i hi => ?_⟩
  simp only [vecOf, entryOf, lit_real, Rat.cast_zero, List.getD_eq_getElem?_getD, List.getElem?_take, if_pos hi]

/-- C100: if modes of a symmetric top or linear molecule that are close enough to be aligned have the same frequency,
the reported displacements are normal modes: they solve the equations of motion given by the Hessian with the reported
frequencies, and are orthonormal with respect to the masses. -/
theorem c100_normal_modes (s : SpectroIn ℝ) (o : Oracles ℝ ι) (fc2 : Mat ℝ) (q : Output ℝ ι)
    (hs : s.rotor.isSymTop = true) (hn : s.n3n = 3 * s.natom) (hv : s.nvib ≤ s.n3n)
    (hw : ∀ a < s.natom, 0 < s.weights a) (hax : Orthogonal3 s.axes) (h2 : Symm2 s.n3n fc2)
    (he : ∀ m, Symm2 s.n3n m → IsEigen s.n3n m (o.eigen m)) (hq : run s o (.harmonic fc2) = some q)
    (hd : Separated s.nvib (if s.linear then 1 else 0.05) (entryOf q.harms)) :
    (∀ i < s.nvib, ∀ u : Nat → ℝ,
      waveUnit ^ 2 * FACT2 * form2 s.n3n fc2 u (applyAxes s.axes (columnEntry q.lx i)) =
        entryOf q.harms i * |entryOf q.harms i| *
          massForm s.n3n s.weights u (applyAxes s.axes (columnEntry q.lx i))) ∧
    ∀ i < s.nvib, ∀ j < s.nvib, massForm s.n3n s.weights (applyAxes s.axes (columnEntry q.lx i))
      (applyAxes s.axes (columnEntry q.lx j)) = if i = j then 1 else 0 := by
  obtain ⟨m, hm, t1, t2, -, hf⟩ := harmonic_facts hq
  have et : (if s.linear then 1 else 0.05 : ℝ) = alignTol s.linear := by
    rw [alignTol_real]
    split <;> norm_num
  rw [et] at hd
  obtain ⟨-, ho, hlx, ev, hev, hM⟩ := sym_modes_exact hs hn hv he hm (fun a b ha hb hab => by
    rw [hf a ha, hf b hb] at hab ⊢
    exact hd a b ha hb hab)
  have hc : ∀ i < s.nvib, ∀ r < s.n3n, columnEntry q.lx i r = m.lxm r i / Real.sqrt (s.weights (r / 3)) :=
    fun i hi r hr => by rw [columnEntry_toVec t2 i r (by omega) hr, hlx r i hr (by omega)]
  refine ⟨fun i hi u => ?_, fun i hi j hj => ?_⟩
  · rw [← hf i hi, hev i (by omega)]
    exact motion_of_eigen hn hw hax h2 (c := fun r => m.lxm r i) (fun a ha => hM a i ha (by omega)) (hc i hi) u
  · rw [massForm_of_scaled hn hw hax (hc i hi) (hc j hj)]
    exact ho i j (by omega) (by omega)

/-! ### Reversed normal coordinates -/

theorem axial_sym {r : Rotor} (h : axialTop r) : r.isSymTop = true ∧ r ≠ .sphericalTop := by
  rcases h with rfl | rfl | rfl <;> exact ⟨rfl, by decide⟩

theorem finish_same {s : SpectroIn ℝ} {o o' : Oracles ℝ ι} {freq : List ℝ} {F3 : T3 ℝ} {F4 : T4 ℝ} {irr irr' : List ι}
    {lxm lxm' lx lx' : Mat ℝ} {σ : Nat → ℝ} (hσ : Signs σ) {out out' : Output ℝ ι} (hr : axialTop s.rotor)
    (he : ∀ p v q, IsEigen2 p v q (o.eigen2 p v q)) (he' : ∀ p v q, IsEigen2 p v q (o'.eigen2 p v q))
    (hl : ∀ r < 3 * s.natom, ∀ j < s.nvib, lxm' r j = σ j * lxm r j)
    (hp : ∀ i j, Mode.i2 i j ∈ degModes s.rotor s.nvib (vecOf freq) → σ i = σ j)
    (h : finish s o freq F3 F4 irr lxm lx = some out)
    (h' : finish s o' freq (fun i j k => σ i * σ j * σ k * F3 i j k) (fun i j k l => σ i * σ j * σ k * σ l * F4 i j k l)
      irr' lxm' lx' = some out') : SameResults out' out := by
  unfold finish at h h'
  rw [makeZmat_flip hl, wilsonA_flip hl] at h'
  simp only [quartic_flip hσ, reststNew_sym_flip hσ, sextic_flip hσ] at h'
  simp only [Option.bind_eq_bind, Option.bind_eq_some_iff] at h h'
  obtain ⟨qu, hqu, r, hrs, x, hx, hf, hhf, zc, hzc, rots, hrots, v, hvec, v', hvec', hq⟩ := h
  obtain ⟨qu₂, hqu₂, r₂, hrs₂, x₂, hx₂, hf₂, hhf₂, zc₂, hzc₂, rots₂, hrots₂, v₂, hvec₂, v₂', hvec₂', hq₂⟩ := h'
  obtain rfl := Option.some.inj hq
  obtain rfl := Option.some.inj hq₂
  obtain rfl := Option.some.inj (hqu.symm.trans hqu₂)
  obtain rfl := Option.some.inj (hrs.symm.trans hrs₂)
  obtain ⟨hs, hsp⟩ := axial_sym hr
  have hmd : r.modes = degModes s.rotor s.nvib (vecOf freq) := by
    obtain ⟨t, -, hmd, -⟩ := restst_parts hrs
    exact hmd
  have hx' : x₂ = x := by
    unfold finishX at hx hx₂
    rw [xcals_flip hσ _ _ _ _ _ _ _ _ _ _ (fun p hp' => by
      rw [part2_mem, hmd] at hp'
      exact hp _ _ hp'), xcalc_flip hσ] at hx₂
    exact Option.some.inj (hx₂.symm.trans hx)
  subst hx'
  obtain rfl := Option.some.inj (hhf.symm.trans hhf₂)
  rw [correctedFunds_determined he he' hσ] at hzc₂
  obtain rfl := Option.some.inj (hzc.symm.trans hzc₂)
  have hR : rots₂ = rots := by
    unfold finishRots at hrots hrots₂
    rw [alphas_flip hσ, alpha_flip hσ] at hrots₂
    exact Option.some.inj (hrots₂.symm.trans hrots)
  subst hR
  exact ⟨rfl, rfl, rfl, rfl, rfl, rfl, rfl, rfl, rfl⟩

theorem same_sym {s : SpectroIn ℝ} {o o' : Oracles ℝ ι} {fc2 : Mat ℝ} {f3x : T3 ℝ} {f4x : T4 ℝ} {out out' : Output ℝ ι}
    (hr : axialTop s.rotor) (hn : s.n3n = 3 * s.natom) (hv : s.nvib ≤ s.n3n) (h0 : 0 < s.nvib)
    (h3 : Symm3 s.n3n f3x) (h4 : Symm4 s.n3n f4x)
    (he : ∀ p v q, IsEigen2 p v q (o.eigen2 p v q)) (he' : ∀ p v q, IsEigen2 p v q (o'.eigen2 p v q))
    (h : run s o (.quartic fc2 f3x f4x) = some out) (h' : run s o' (.quartic fc2 f3x f4x) = some out')
    (hf : ∀ m m', runModes s o fc2 = some m → runModes s o' fc2 = some m' → m'.freq = m.freq ∧ ∃ σ, Signs σ ∧
      (∀ r < s.n3n, ∀ j < s.nvib, m'.lxm r j = σ j * m.lxm r j) ∧
      ∀ i j, Mode.i2 i j ∈ degModes s.rotor s.nvib (vecOf m.freq) → σ i = σ j) : SameResults out' out := by
  obtain ⟨m, F4, hm, hF, hfin⟩ := run_quartic h
  obtain ⟨m', F4', hm', hF', hfin'⟩ := run_quartic h'
  obtain ⟨ef, σ, hσ, hl, hp⟩ := hf m m' hm hm'
  rw [ef] at hF' hfin'
  have one : ((1.0 : ℚ) : ℝ) = 1 := by norm_num
  have scaled : ∀ {o : Oracles ℝ ι} {m : ModesOut ℝ ι}, runModes s o fc2 = some m →
      ∀ i j, i < s.n3n → j < s.n3n → m.lx i j = m.lxm i j / Real.sqrt (s.weights (i / 3)) := by
    intro o m hm
    obtain ⟨-, hb⟩ := runModes_sym (axial_sym hr).1 hm
    refine c50_mass_scaled _ _ _ _ _ _ _ s.n3n hb hn ?_
    intro i j hi hj
    rw [makeLx_apply _ _ _ _ _ hi hj]
    simp only [lit_real, sqrt_real, one]
    ring
  have hlx : ∀ r < s.n3n, ∀ j < s.nvib, m'.lx r j = σ j * m.lx r j := by
    intro r hr' j hj
    rw [scaled hm r j hr' (by omega), scaled hm' r j hr' (by omega), hl r hr' j hj]
    ring
  have s3 : Symm3 s.n3n (rot3rd s.n3n s.natom s.axes f3x) := by
    rw [hn] at h3 ⊢
    exact c08_symmetric _ _ _ h3
  have s4 : Symm4 s.n3n (rot4th s.n3n s.natom s.axes f4x) := by
    rw [hn] at h4 ⊢
    exact c09_symmetric _ _ _ h4
  rw [force3_flip s3 hv hlx, force4_flip s4 hv h0 hlx hF hF'] at hfin'
  exact finish_same hσ hr he he' (fun r hr' j hj => hl r (by omega) j hj) hp hfin hfin'

theorem quartic_modes {s : SpectroIn ℝ} {o : Oracles ℝ ι} {fc2 : Mat ℝ} {f3x : T3 ℝ} {f4x : T4 ℝ} {m : ModesOut ℝ ι}
    {out : Output ℝ ι} (hm : runModes s o fc2 = some m) (h : run s o (.quartic fc2 f3x f4x) = some out) :
    toVec s.n3n s.n3n m.lxm = some out.lxm ∧ out.resonances.modes = degModes s.rotor s.nvib (vecOf m.freq) := by
  obtain ⟨m₂, F4, hm₂, -, hfin⟩ := run_quartic h
  obtain rfl := Option.some.inj (hm.symm.trans hm₂)
  unfold finish at hfin
  simp only [Option.bind_eq_bind, Option.bind_eq_some_iff] at hfin
  obtain ⟨qu, -, r, hrs, x, -, hf, -, zc, -, rots, -, v, hvec, v', -, hq⟩ := hfin
  obtain rfl := Option.some.inj hq
  obtain ⟨t, -, hmd, -⟩ := restst_parts hrs
  exact ⟨hvec, hmd⟩

/-- C100: two eigensolvers which return the same eigenvalues and lead, after the alignment of degenerate modes, to
displacements that differ only in their signs - the two components of a degenerate mode in the same way - lead to the
same results for a symmetric top or a linear molecule. -/
theorem c100_signs (s : SpectroIn ℝ) (o o' : Oracles ℝ ι) (fc2 : Mat ℝ) (f3x : T3 ℝ) (f4x : T4 ℝ)
    (out out' : Output ℝ ι) (hr : axialTop s.rotor) (hn : s.n3n = 3 * s.natom) (hv : s.nvib ≤ s.n3n) (h0 : 0 < s.nvib)
    (h3 : Symm3 s.n3n f3x) (h4 : Symm4 s.n3n f4x)
    (he : ∀ p v q, IsEigen2 p v q (o.eigen2 p v q)) (he' : ∀ p v q, IsEigen2 p v q (o'.eigen2 p v q))
    (hval : ∀ M, (o'.eigen M).1 = (o.eigen M).1)
    (h : run s o (.quartic fc2 f3x f4x) = some out) (h' : run s o' (.quartic fc2 f3x f4x) = some out')
    (σ : Nat → ℝ) (hσ : ∀ i, σ i = 1 ∨ σ i = -1)
    (hl : ∀ i < s.nvib, ∀ r < s.n3n, columnEntry out'.lxm i r = σ i * columnEntry out.lxm i r)
    (hp : ∀ i j, Mode.i2 i j ∈ out.resonances.modes → σ i = σ j) : SameResults out' out := by
  refine same_sym hr hn hv h0 h3 h4 he he' h h' ?_
  intro m m' hm hm'
  obtain ⟨t1, hmd⟩ := quartic_modes hm h
  obtain ⟨t1', -⟩ := quartic_modes hm' h'
  refine ⟨?_, σ, hσ, fun r hr' j hj => ?_, fun i j hij => hp i j (by rwa [hmd])⟩
  · rw [(runModes_sym (axial_sym hr).1 hm).1, (runModes_sym (axial_sym hr).1 hm').1]
    simp only [rawModes, symmEigenDecomp, hval]
  · rw [← columnEntry_toVec t1 j r (by omega) hr', ← columnEntry_toVec t1' j r (by omega) hr']
    exact hl j hj r hr'

/-! ### Solvers that are exact -/

/-- Every frequency is at most twofold: with each mode `i` there is a mode `j` (possibly `i` itself) of the same
frequency such that every solution of the equations of motion with this frequency is a combination of the two. -/
def TwoFold (nvib n : Nat) (c : ℝ) (H : Nat → Nat → ℝ) (mass w : Nat → ℝ) (d : Nat → Nat → ℝ) : Prop :=
  ∀ i < nvib, ∃ j < nvib, w j = w i ∧ ∀ u : Nat → ℝ,
    (∀ t : Nat → ℝ, c * form2 n H t u = w i * |w i| * massForm n mass t u) →
      ∃ a b, ∀ r < n, u r = a * d i r + b * d j r

theorem massForm_combine (n : Nat) (mass : Nat → ℝ) (u v v' t : Nat → ℝ) (a b : ℝ) (h : ∀ r < n, u r = a * v r + b * v' r) :
    massForm n mass u t = a * massForm n mass v t + b * massForm n mass v' t := by
  unfold massForm
  rw [mul_sum, mul_sum, ← sum_add_distrib]
  refine sum_congr rfl fun r hr => ?_
  rw [h r (mem_range.1 hr)]
  ring

theorem massForm_comm (n : Nat) (mass : Nat → ℝ) (u v : Nat → ℝ) : massForm n mass u v = massForm n mass v u :=
  sum_congr rfl fun r _ => by ring

section TwoFold
variable {nvib n : Nat} {c : ℝ} {H : Nat → Nat → ℝ} {mass w : Nat → ℝ} {d : Nat → Nat → ℝ}

theorem twofold_pair (hT : TwoFold nvib n c H mass w d)
    (hm : ∀ i < nvib, ∀ t : Nat → ℝ, c * form2 n H t (d i) = w i * |w i| * massForm n mass t (d i))
    (ho : ∀ i < nvib, ∀ j < nvib, massForm n mass (d i) (d j) = if i = j then 1 else 0) :
    (∀ i j k, i < nvib → j < nvib → k < nvib → i ≠ j → i ≠ k → j ≠ k → w i = w j → w j ≠ w k) ∧
    (∀ i j, i < nvib → j < nvib → i ≠ j → w i = w j → ∀ u : Nat → ℝ,
      (∀ t : Nat → ℝ, c * form2 n H t u = w i * |w i| * massForm n mass t u) →
        ∃ a b, ∀ r < n, u r = a * d i r + b * d j r) ∧
    ∀ i < nvib, (∀ j < nvib, j ≠ i → w j ≠ w i) → ∀ u : Nat → ℝ,
      (∀ t : Nat → ℝ, c * form2 n H t u = w i * |w i| * massForm n mass t u) → ∃ a, ∀ r < n, u r = a * d i r := by
  have third : ∀ i < nvib, ∀ j < nvib, (∀ u : Nat → ℝ,
      (∀ t : Nat → ℝ, c * form2 n H t u = w i * |w i| * massForm n mass t u) →
        ∃ a b, ∀ r < n, u r = a * d i r + b * d j r) → ∀ k < nvib, w k = w i → k = i ∨ k = j := by
    intro i hi j hj h k hk hki
    by_contra hc
    rw [not_or] at hc
    obtain ⟨a, b, hab⟩ := h (d k) (fun t => by rw [← hki]; exact hm k hk t)
    have := massForm_combine n mass (d k) (d i) (d j) (d k) a b hab
    rw [ho k hk k hk, if_pos rfl, ho i hi k hk, if_neg (Ne.symm hc.1), ho j hj k hk, if_neg (Ne.symm hc.2)] at this
    linarith
  have pair : ∀ i j, i < nvib → j < nvib → i ≠ j → w i = w j → ∀ u : Nat → ℝ,
      (∀ t : Nat → ℝ, c * form2 n H t u = w i * |w i| * massForm n mass t u) →
        ∃ a b, ∀ r < n, u r = a * d i r + b * d j r := by
    intro i j hi hj hij hw
    obtain ⟨k, hk, hwk, h⟩ := hT i hi
    rcases third i hi k hk h j hj hw.symm with e | e
    · exact absurd e.symm hij
    · rw [e]
      exact h
  refine ⟨fun i j k hi hj hk hij hik hjk hw hw' => ?_, pair, fun i hi h u hu => ?_⟩
  · rcases third i hi j hj (pair i j hi hj hij hw) k hk (by rw [← hw', hw]) with e | e
    · exact hik e.symm
    · exact hjk e.symm
  · obtain ⟨k, hk, hwk, hu'⟩ := hT i hi
    obtain ⟨a, b, hab⟩ := hu' u hu
    have : k = i := by
      by_contra hne
      exact h k hk hne hwk
    subst this
    exact ⟨a + b, fun r hr => by rw [hab r hr]; ring⟩

end TwoFold

/-- The core of the theorems below: pairs are determined up to their signs. -/
theorem pair_signs {n : Nat} {mass : Nat → ℝ} {di dj ei ej : Nat → ℝ}
    (n1 : massForm n mass di di = 1) (n2 : massForm n mass dj dj = 1) (n3 : massForm n mass di dj = 0)
    (m1 : massForm n mass ei ei = 1) (m2 : massForm n mass ej ej = 1) (m3 : massForm n mass ei ej = 0)
    (hi : ∃ a b, ∀ r < n, ei r = a * di r + b * dj r) (hj : ∃ a b, ∀ r < n, ej r = a * di r + b * dj r)
    {φ : (Nat → ℝ) → ℝ} (hφ : ∀ u a b, (∀ r < n, u r = a * di r + b * dj r) → φ u = a * φ di + b * φ dj)
    (z1 : φ di ≠ 0) (z2 : φ dj = 0) (z3 : φ ej = 0) :
    (∃ a, (a = 1 ∨ a = -1) ∧ ∀ r < n, ei r = a * di r) ∧ ∃ b, (b = 1 ∨ b = -1) ∧ ∀ r < n, ej r = b * dj r := by
  obtain ⟨a, b, hab⟩ := hj
  have ha : a = 0 := by
    have := hφ ej a b hab
    rw [z3, z2, mul_zero, add_zero] at this
    rcases mul_eq_zero.1 this.symm with h | h
    · exact h
    · exact absurd h z1
  subst ha
  have hej : ∀ r < n, ej r = b * dj r := fun r hr => by rw [hab r hr]; ring
  have hb : b = 1 ∨ b = -1 := by
    rw [massForm_scale _ _ _ _ b hej, n2, mul_one] at m2
    exact mul_self_eq_one_iff.1 (by linarith [pow_two b])
  obtain ⟨p, q, hpq⟩ := hi
  have hq : q = 0 := by
    have e := massForm_combine n mass ei di dj ej p q hpq
    have e1 : massForm n mass di ej = b * massForm n mass di dj := by
      rw [massForm_comm, massForm_combine n mass ej dj dj di b 0 (fun r hr => by rw [hej r hr]; ring), massForm_comm]
      ring
    have e2 : massForm n mass dj ej = b := by
      rw [massForm_comm, massForm_combine n mass ej dj dj dj b 0 (fun r hr => by rw [hej r hr]; ring), n2]
      ring
    rw [m3, e1, e2, n3] at e
    rcases hb with rfl | rfl <;> linarith
  subst hq
  have hei : ∀ r < n, ei r = p * di r := fun r hr => by rw [hpq r hr]; ring
  refine ⟨⟨p, ?_, hei⟩, b, hb, hej⟩
  rw [massForm_scale _ _ _ _ p hei, n1, mul_one] at m1
  exact mul_self_eq_one_iff.1 (by linarith [pow_two p])

theorem raw_freq_same {s : SpectroIn ℝ} {o o' : Oracles ℝ ι} {fc2 : Mat ℝ}
    (he : ∀ m, Symm2 s.n3n m → IsEigen s.n3n m (o.eigen m)) (he' : ∀ m, Symm2 s.n3n m → IsEigen s.n3n m (o'.eigen m)) :
    (rawModes s o' fc2).1 = (rawModes s o fc2).1 := by
  unfold rawModes
  dsimp only
  congr 1
  have hsy := c10_symmetric s.n3n (fun i j => (FACT2 : ℝ) * rot2nd s.natom s.axes fc2 i j)
    (fun i => Arith.lit 1.0 / Arith.sqrt (s.weights i))
  generalize formSec s.n3n (fun i j => (FACT2 : ℝ) * rot2nd s.natom s.axes fc2 i j)
    (fun i => Arith.lit 1.0 / Arith.sqrt (s.weights i)) = M at hsy
  have hperm : (symmEigenDecomp (o'.eigen M).1 (o'.eigen M).2 true).1.Perm
      (symmEigenDecomp (o.eigen M).1 (o.eigen M).2 true).1 :=
    (decomp_vals_perm _ _).trans ((eigen_perm (he' M fun a b _ _ => hsy a b) (he M fun a b _ _ => hsy a b)).trans
      (decomp_vals_perm _ _).symm)
  exact hperm.eq_of_pairwise (fun a b _ _ h1 h2 => le_antisymm h2 h1) (c11_sorted _ _).1 (c11_sorted _ _).1

theorem solver_core {s : SpectroIn ℝ} {o o' : Oracles ℝ ι} {fc2 : Mat ℝ} {f3x : T3 ℝ} {f4x : T4 ℝ}
    {out out' q q' : Output ℝ ι} (hr : axialTop s.rotor) (hn : s.n3n = 3 * s.natom) (hv : s.nvib ≤ s.n3n)
    (h0 : 0 < s.nvib) (hw : ∀ a < s.natom, 0 < s.weights a) (hax : Orthogonal3 s.axes) (hat : s.iatom < s.natom)
    (h2 : Symm2 s.n3n fc2) (h3 : Symm3 s.n3n f3x) (h4 : Symm4 s.n3n f4x)
    (he : ∀ m, Symm2 s.n3n m → IsEigen s.n3n m (o.eigen m)) (he' : ∀ m, Symm2 s.n3n m → IsEigen s.n3n m (o'.eigen m))
    (hp : ∀ p v q, IsEigen2 p v q (o.eigen2 p v q)) (hp' : ∀ p v q, IsEigen2 p v q (o'.eigen2 p v q))
    (h : run s o (.quartic fc2 f3x f4x) = some out) (h' : run s o' (.quartic fc2 f3x f4x) = some out')
    (hq : run s o (.harmonic fc2) = some q) (hq' : run s o' (.harmonic fc2) = some q')
    {T : ℝ} (hT : alignTol s.linear ≤ T) (hT' : 1 / 10 ≤ T) (hd : Separated s.nvib T (entryOf q.harms))
    (hf : TwoFold s.nvib s.n3n (waveUnit ^ 2 * FACT2) fc2 s.weights (entryOf q.harms)
      (fun i => applyAxes s.axes (columnEntry q.lx i)))
    (hx : ∀ i j, i < j → j < s.nvib → entryOf q.harms i = entryOf q.harms j → columnEntry q.lxm i (3 * s.iatom) ≠ 0 ∧
      columnEntry q.lxm j (3 * s.iatom) = 0 ∧ columnEntry q'.lxm j (3 * s.iatom) = 0)
    (hsign : ∀ m m', runModes s o fc2 = some m → runModes s o' fc2 = some m' →
      Paired s.nvib (alignTol s.linear) (vecOf m.freq) → Paired s.nvib (alignTol s.linear) (vecOf m'.freq) →
      ∀ i j, i < j → j < s.nvib → |vecOf m.freq i - vecOf m.freq j| < alignTol s.linear →
      |vecOf m'.freq i - vecOf m'.freq j| < alignTol s.linear →
      ∀ a b : ℝ, (a = 1 ∨ a = -1) → (b = 1 ∨ b = -1) → (∀ r < s.n3n, m'.lxm r i = a * m.lxm r i) →
      (∀ r < s.n3n, m'.lxm r j = b * m.lxm r j) → a = b) :
    SameResults out' out := by
  obtain ⟨hs, -⟩ := axial_sym hr
  have hTp : (0 : ℝ) < alignTol s.linear := by
    rw [alignTol_real]
    split <;> norm_num
  have et : (if s.linear then 1 else 0.05 : ℝ) = alignTol s.linear := by
    rw [alignTol_real]
    split <;> norm_num
  obtain ⟨m, hm, t1, t2, -, fq⟩ := harmonic_facts hq
  obtain ⟨m', hm', t1', t2', -, fq'⟩ := harmonic_facts hq'
  have ef : m'.freq = m.freq := by
    rw [(runModes_sym hs hm).1, (runModes_sym hs hm').1, raw_freq_same he he']
  have eh : ∀ i < s.nvib, entryOf q'.harms i = entryOf q.harms i := fun i hi => by rw [← fq i hi, ← fq' i hi, ef]
  have hd1 : Separated s.nvib (alignTol s.linear) (entryOf q.harms) := fun i j hi hj hij =>
    hd i j hi hj (lt_of_lt_of_le hij hT)
  have hd2 : Separated s.nvib (alignTol s.linear) (entryOf q'.harms) := fun i j hi hj hij => by
    rw [eh i hi, eh j hj] at hij ⊢
    exact hd1 i j hi hj hij
  obtain ⟨N1, N2⟩ := c100_normal_modes s o fc2 q hs hn hv hw hax h2 he hq (by rw [et]; exact hd1)
  obtain ⟨N1', N2'⟩ := c100_normal_modes s o' fc2 q' hs hn hv hw hax h2 he' hq' (by rw [et]; exact hd2)
  obtain ⟨P1, P2, P3⟩ := twofold_pair hf N1 N2
  have sol : ∀ i < s.nvib, ∀ t : Nat → ℝ,
      waveUnit ^ 2 * FACT2 * form2 s.n3n fc2 t (applyAxes s.axes (columnEntry q'.lx i)) =
        entryOf q.harms i * |entryOf q.harms i| *
          massForm s.n3n s.weights t (applyAxes s.axes (columnEntry q'.lx i)) := fun i hi t => by
    rw [← eh i hi]
    exact N1' i hi t
  have exact1 := fun (a b : Nat) (ha : a < s.nvib) (hb : b < s.nvib) (hab : |vecOf m.freq a - vecOf m.freq b| < alignTol s.linear) =>
    show vecOf m.freq a = vecOf m.freq b by
      rw [fq a ha, fq b hb] at hab ⊢
      exact hd1 a b ha hb hab
  obtain ⟨-, -, lx1, -⟩ := sym_modes_exact hs hn hv he hm exact1
  obtain ⟨-, -, lx2, -⟩ := sym_modes_exact hs hn hv he' hm' (by rw [ef]; exact exact1)
  -- from displacements to columns
  have back : ∀ i < s.nvib, ∀ a : ℝ, (∀ r < s.n3n, applyAxes s.axes (columnEntry q'.lx i) r =
      a * applyAxes s.axes (columnEntry q.lx i) r) → ∀ r < s.n3n, m'.lxm r i = a * m.lxm r i := by
    intro i hi a ha r hr'
    have e : columnEntry q'.lx i r = a * columnEntry q.lx i r := by
      rw [← applyAxes_back hax (columnEntry q'.lx i) r, ← applyAxes_back hax (columnEntry q.lx i) r, mul_sum]
      refine sum_congr rfl fun p hp => ?_
      have := mem_range.1 hp
      rw [ha (3 * (r / 3) + p) (by omega)]
      ring
    rw [columnEntry_toVec t2 i r (by omega) hr', columnEntry_toVec t2' i r (by omega) hr', lx1 r i hr' (by omega),
      lx2 r i hr' (by omega)] at e
    have hpos := Real.sqrt_pos.2 (hw (r / 3) (by omega))
    field_simp at e
    exact e
  -- the linear form that reads the x component of the reference atom
  let φ : (Nat → ℝ) → ℝ := fun u => ∑ p ∈ range 3, s.axes p 0 * u (3 * s.iatom + p)
  have hφ : ∀ v, φ (applyAxes s.axes v) = v (3 * s.iatom) := by
    intro v
    have := applyAxes_back hax v (3 * s.iatom)
    rw [show 3 * s.iatom % 3 = 0 by omega, show 3 * s.iatom / 3 = s.iatom by omega] at this
    exact this
  have lin : ∀ (u v v' : Nat → ℝ) (a b : ℝ), (∀ r < s.n3n, u r = a * v r + b * v' r) → φ u = a * φ v + b * φ v' := by
    intro u v v' a b huv
    simp only [φ]
    rw [mul_sum, mul_sum, ← sum_add_distrib]
    refine sum_congr rfl fun p hp => ?_
    have := mem_range.1 hp
    rw [huv (3 * s.iatom + p) (by omega)]
    ring
  have cx : 3 * s.iatom < s.n3n := by omega
  have sx := Real.sqrt_pos.2 (hw (3 * s.iatom / 3) (by omega))
  have fx : ∀ i < s.nvib, φ (applyAxes s.axes (columnEntry q.lx i)) =
      columnEntry q.lxm i (3 * s.iatom) / Real.sqrt (s.weights (3 * s.iatom / 3)) := by
    intro i hi
    rw [hφ, columnEntry_toVec t2 i _ (by omega) cx, columnEntry_toVec t1 i _ (by omega) cx, lx1 _ i cx (by omega)]
  have fx' : ∀ i < s.nvib, φ (applyAxes s.axes (columnEntry q'.lx i)) =
      columnEntry q'.lxm i (3 * s.iatom) / Real.sqrt (s.weights (3 * s.iatom / 3)) := by
    intro i hi
    rw [hφ, columnEntry_toVec t2' i _ (by omega) cx, columnEntry_toVec t1' i _ (by omega) cx, lx2 _ i cx (by omega)]
  -- pairs
  have pairs : ∀ i j, i < j → j < s.nvib → entryOf q.harms i = entryOf q.harms j →
      (∃ a : ℝ, (a = 1 ∨ a = -1) ∧ ∀ r < s.n3n, m'.lxm r i = a * m.lxm r i) ∧
      ∃ b : ℝ, (b = 1 ∨ b = -1) ∧ ∀ r < s.n3n, m'.lxm r j = b * m.lxm r j := by
    intro i j hij hj hwij
    have hi : i < s.nvib := by omega
    obtain ⟨x1, x2, x3⟩ := hx i j hij hj hwij
    have g1 := P2 i j hi hj (by omega) hwij _ (sol i hi)
    have g2 := P2 i j hi hj (by omega) hwij (applyAxes s.axes (columnEntry q'.lx j)) (by rw [hwij]; exact sol j hj)
    obtain ⟨⟨a, ha, ea⟩, b, hb, eb⟩ := pair_signs (φ := φ) (by rw [N2 i hi i hi, if_pos rfl])
      (by rw [N2 j hj j hj, if_pos rfl]) (by rw [N2 i hi j hj, if_neg (by omega)])
      (by rw [N2' i hi i hi, if_pos rfl]) (by rw [N2' j hj j hj, if_pos rfl])
      (by rw [N2' i hi j hj, if_neg (by omega)]) g1 g2 (fun u a b hu => lin u _ _ a b hu)
      (by rw [fx i hi]; exact div_ne_zero x1 sx.ne') (by rw [fx j hj, x2, zero_div]) (by rw [fx' j hj, x3, zero_div])
    exact ⟨⟨a, ha, back i hi a ea⟩, b, hb, back j hj b eb⟩
  have single : ∀ i < s.nvib, (∀ j < s.nvib, j ≠ i → entryOf q.harms j ≠ entryOf q.harms i) →
      ∃ a : ℝ, (a = 1 ∨ a = -1) ∧ ∀ r < s.n3n, m'.lxm r i = a * m.lxm r i := by
    intro i hi hne
    obtain ⟨a, ha⟩ := P3 i hi hne _ (sol i hi)
    refine ⟨a, ?_, back i hi a ha⟩
    have n1 := N2' i hi i hi
    rw [if_pos rfl, massForm_scale _ _ _ _ a ha, N2 i hi i hi, if_pos rfl, mul_one] at n1
    exact mul_self_eq_one_iff.1 (by linarith [pow_two a])
  have one : ∀ i < s.nvib, ∃ a : ℝ, (a = 1 ∨ a = -1) ∧ ∀ r < s.n3n, m'.lxm r i = a * m.lxm r i := by
    intro i hi
    by_cases hc : ∀ j < s.nvib, j ≠ i → entryOf q.harms j ≠ entryOf q.harms i
    · exact single i hi hc
    · push Not at hc
      obtain ⟨j, hj, hji, hwj⟩ := hc
      rcases Nat.lt_or_gt_of_ne hji with hlt | hlt
      · exact (pairs j i hlt hi hwj).2
      · exact (pairs i j hlt hj hwj.symm).1
  have pd : Paired s.nvib (alignTol s.linear) (vecOf m.freq) := by
    intro i j k hi hj hk hij hik hjk hlt
    by_contra hc
    rw [not_le] at hc
    have e1 := exact1 i j hi hj hlt
    have e2 := exact1 j k hj hk hc
    rw [fq i hi, fq j hj] at e1
    rw [fq j hj, fq k hk] at e2
    exact P1 i j k hi hj hk hij hik hjk e1 e2
  choose! κ hκ using one
  refine same_sym hr hn hv h0 h3 h4 hp hp' h h' ?_
  intro m₂ m₂' hm₂ hm₂'
  obtain rfl := Option.some.inj (hm.symm.trans hm₂)
  obtain rfl := Option.some.inj (hm'.symm.trans hm₂')
  refine ⟨ef, fun j => if j < s.nvib then κ j else 1, fun j => ?_, fun r hr' j hj => ?_, fun i j hij => ?_⟩
  · by_cases hj : j < s.nvib
    · simpa only [if_pos hj] using (hκ j hj).1
    · exact .inl (if_neg hj)
  · dsimp only
    rw [if_pos hj]
    exact (hκ j hj).2 r hr'
  · rcases (mem_degModes_sym hs).1 hij with ⟨p, -, e⟩ | ⟨⟨a, b⟩, hab, e⟩ | ⟨_, _, _, _, e⟩
    · cases e
    · simp only [Mode.i2.injEq] at e
      obtain ⟨rfl, rfl⟩ := e
      obtain ⟨i1, i2⟩ := incPairs_lt (List.mem_filter.1 hab).1
      have hlt := (degDoubles_iff.1 hab).2.1
      have hi : i < s.nvib := lt_trans i1 i2
      have heq : vecOf m.freq i = vecOf m.freq j := by
        rw [fq i hi, fq j i2] at hlt ⊢
        refine hd i j hi i2 (lt_of_lt_of_le ?_ hT')
        norm_num at hlt ⊢
        exact hlt
      have hz : |vecOf m.freq i - vecOf m.freq j| < alignTol s.linear := by rw [heq, sub_self, abs_zero]; exact hTp
      dsimp only
      rw [if_pos hi, if_pos i2]
      exact hsign m m' hm hm' pd (by rw [ef]; exact pd) i j i1 i2 hz (by rw [ef]; exact hz) _ _ (hκ i hi).1 (hκ j i2).1
        (hκ i hi).2 (hκ j i2).2
    · cases e

/-- C100: any two eigensolvers that solve the secular equations and the two-level problems exactly lead to the same
results for a linear molecule, if its frequencies are at most twofold and otherwise at least 1 cm⁻¹ apart, and in every
pair the reference atom moves along x in the first component, and along y but not along x in the second, as the
alignment intends (C51). -/
theorem c100_linear (s : SpectroIn ℝ) (o o' : Oracles ℝ ι) (fc2 : Mat ℝ) (f3x : T3 ℝ) (f4x : T4 ℝ)
    (out out' q q' : Output ℝ ι) (hr : s.rotor = .linear) (hl : s.linear = true) (hn : s.n3n = 3 * s.natom)
    (hv : s.nvib ≤ s.n3n) (h0 : 0 < s.nvib) (hw : ∀ a < s.natom, 0 < s.weights a) (hax : Orthogonal3 s.axes)
    (hat : s.iatom < s.natom) (h2 : Symm2 s.n3n fc2) (h3 : Symm3 s.n3n f3x) (h4 : Symm4 s.n3n f4x)
    (he : ∀ m, Symm2 s.n3n m → IsEigen s.n3n m (o.eigen m)) (he' : ∀ m, Symm2 s.n3n m → IsEigen s.n3n m (o'.eigen m))
    (hp : ∀ p v q, IsEigen2 p v q (o.eigen2 p v q)) (hp' : ∀ p v q, IsEigen2 p v q (o'.eigen2 p v q))
    (h : run s o (.quartic fc2 f3x f4x) = some out) (h' : run s o' (.quartic fc2 f3x f4x) = some out')
    (hq : run s o (.harmonic fc2) = some q) (hq' : run s o' (.harmonic fc2) = some q')
    (hd : Separated s.nvib 1 (entryOf q.harms))
    (hf : TwoFold s.nvib s.n3n (waveUnit ^ 2 * FACT2) fc2 s.weights (entryOf q.harms)
      (fun i => applyAxes s.axes (columnEntry q.lx i)))
    (hx : ∀ i j, i < j → j < s.nvib → entryOf q.harms i = entryOf q.harms j →
      columnEntry q.lxm i (3 * s.iatom) ≠ 0 ∧ columnEntry q.lxm j (3 * s.iatom) = 0 ∧
      columnEntry q.lxm j (3 * s.iatom + 1) ≠ 0 ∧ columnEntry q'.lxm j (3 * s.iatom) = 0) :
    SameResults out' out := by
  obtain ⟨m₁, hm₁, t1, -, -, fq⟩ := harmonic_facts hq
  refine solver_core (.inr (.inr hr)) hn hv h0 hw hax hat h2 h3 h4 he he' hp hp' h h' hq hq' (T := 1)
    (by rw [alignTol_real, hl]; norm_num) (by norm_num) hd hf
    (fun i j hij hj e => ⟨(hx i j hij hj e).1, (hx i j hij hj e).2.1, (hx i j hij hj e).2.2.2⟩) ?_
  intro m m' hm hm' pd pd' i j hij hj hc hc' a b ha hb ea eb
  obtain rfl := Option.some.inj (hm₁.symm.trans hm)
  have hs : s.rotor.isSymTop = true := by rw [hr]; rfl
  have hwij : entryOf q.harms i = entryOf q.harms j := by
    rw [fq i (by omega), fq j hj, alignTol_real, hl, if_pos rfl] at hc
    exact hd i j (by omega) hj hc
  obtain ⟨x1, -, y2, -⟩ := hx i j hij hj hwij
  rw [columnEntry_toVec t1 i _ (by omega) (by omega)] at x1
  rw [columnEntry_toVec t1 j _ (by omega) (by omega)] at y2
  obtain ⟨l, l', hl1, el, -⟩ := sym_modes_pair hs hm pd i j hij hj hc
  obtain ⟨k, k', hk1, ek, -⟩ := sym_modes_pair hs hm' pd' i j hij hj hc'
  have r1 := c51_linear_sign_partial _ i j (by omega) l l' hl hl1 (show 3 * s.iatom + 1 < s.n3n by omega)
  have r2 := c51_linear_sign_partial _ i j (by omega) k k' hl hk1 (show 3 * s.iatom + 1 < s.n3n by omega)
  dsimp only at r1 r2
  rw [← (el _).1, ← (el _).2] at r1
  rw [← (ek _).1, ← (ek _).2, ea _ (by omega), eb _ (by omega)] at r2
  have hne : m₁.lxm (3 * s.iatom) i * m₁.lxm (3 * s.iatom + 1) j < 0 := lt_of_le_of_ne r1 (mul_ne_zero x1 y2)
  rcases ha with rfl | rfl <;> rcases hb with rfl | rfl <;> first | rfl | (exfalso; nlinarith)

/-- The first column after the alignment of a pair none of whose tested components is large. -/
theorem align_small {cfg : AlignCfg} {i j : Nat} (hij : i ≠ j) {l l' : Mat ℝ} (h : alignLxm cfg i j l = some l')
    (hx : 3 * cfg.iatom < cfg.n3n) (ht : allTiny (3 * cfg.iatom) i j l = true) : |l' (3 * cfg.iatom) i| < 1 / 50000 := by
  obtain ⟨θ, e, -, -, hT⟩ := alignLxm_turned hij h
  rw [hT, if_pos hx, if_pos rfl]
  unfold allTiny tiny at ht
  simp only [Bool.and_eq_true, lt_real, abs_real, toler_real] at ht
  obtain ⟨⟨⟨h1, h2⟩, -⟩, -⟩ := ht
  have c1 := Real.abs_cos_le_one θ
  have s1 := Real.abs_sin_le_one θ
  calc _ ≤ |Real.cos θ * l (3 * cfg.iatom) i| + |Real.sin θ * l (3 * cfg.iatom) j| := abs_add_le _ _
    _ ≤ |l (3 * cfg.iatom) i| + |l (3 * cfg.iatom) j| := by
      rw [abs_mul, abs_mul]
      have := mul_le_mul_of_nonneg_right c1 (abs_nonneg (l (3 * cfg.iatom) i))
      have := mul_le_mul_of_nonneg_right s1 (abs_nonneg (l (3 * cfg.iatom) j))
      linarith
    _ < 1 / 50000 := by linarith

/-- C100: the same for an oblate or prolate symmetric top, whose frequencies must be at least 0.1 cm⁻¹ apart unless they
agree. In every pair the reference atom must move along x, by more than the tolerance, in the first component and not in
the second, and the rule that fixes the relative sign of the two components by means of a second atom must be decisive. -/
theorem c100_symmetric_top (s : SpectroIn ℝ) (o o' : Oracles ℝ ι) (fc2 : Mat ℝ) (f3x : T3 ℝ) (f4x : T4 ℝ)
    (out out' q q' : Output ℝ ι) (b : Nat) (hr : s.rotor = .oblateSymmTop ∨ s.rotor = .prolateSymmTop)
    (hl : s.linear = false) (hn : s.n3n = 3 * s.natom) (hv : s.nvib ≤ s.n3n) (h0 : 0 < s.nvib)
    (hw : ∀ a < s.natom, 0 < s.weights a) (hax : Orthogonal3 s.axes) (hat : s.iatom < s.natom)
    (hbud : s.buddy = some b) (hb : b < s.natom) (h2 : Symm2 s.n3n fc2) (h3 : Symm3 s.n3n f3x) (h4 : Symm4 s.n3n f4x)
    (he : ∀ m, Symm2 s.n3n m → IsEigen s.n3n m (o.eigen m)) (he' : ∀ m, Symm2 s.n3n m → IsEigen s.n3n m (o'.eigen m))
    (hp : ∀ p v q, IsEigen2 p v q (o.eigen2 p v q)) (hp' : ∀ p v q, IsEigen2 p v q (o'.eigen2 p v q))
    (h : run s o (.quartic fc2 f3x f4x) = some out) (h' : run s o' (.quartic fc2 f3x f4x) = some out')
    (hq : run s o (.harmonic fc2) = some q) (hq' : run s o' (.harmonic fc2) = some q')
    (hd : Separated s.nvib 0.1 (entryOf q.harms))
    (hf : TwoFold s.nvib s.n3n (waveUnit ^ 2 * FACT2) fc2 s.weights (entryOf q.harms)
      (fun i => applyAxes s.axes (columnEntry q.lx i)))
    (hx : ∀ i j, i < j → j < s.nvib → entryOf q.harms i = entryOf q.harms j →
      1 / 50000 ≤ |columnEntry q.lxm i (3 * s.iatom)| ∧ columnEntry q.lxm j (3 * s.iatom) = 0 ∧
      columnEntry q'.lxm j (3 * s.iatom) = 0 ∧
      ∃ n, FirstTurn s.axisOrder n (3 * s.iatom) (3 * b) i j (fun r c => columnEntry q.lxm c r) ∧
        (turnTest s.axisOrder n (3 * s.iatom) (3 * b) i j (fun r c => columnEntry q.lxm c r)).1 *
          (turnTest s.axisOrder n (3 * s.iatom) (3 * b) i j (fun r c => columnEntry q.lxm c r)).2 ≠ 0) :
    SameResults out' out := by
  obtain ⟨m₁, hm₁, t1, -, -, fq⟩ := harmonic_facts hq
  have hr' : axialTop s.rotor := hr.elim .inl (fun h => .inr (.inl h))
  refine solver_core hr' hn hv h0 hw hax hat h2 h3 h4 he he' hp hp' h h' hq hq' (T := 0.1)
    (by rw [alignTol_real, hl]; norm_num) (by norm_num) hd hf
    (fun i j hij hj e => ⟨fun h0 => ?_, (hx i j hij hj e).2.1, (hx i j hij hj e).2.2.1⟩) ?_
  · have := (hx i j hij hj e).1
    rw [h0, abs_zero] at this
    norm_num at this
  intro m m' hm hm' pd pd' i j hij hj hc hc' a e ha he' ea eb
  obtain rfl := Option.some.inj (hm₁.symm.trans hm)
  have hs := (axial_sym hr').1
  have hwij : entryOf q.harms i = entryOf q.harms j := by
    rw [fq i (by omega), fq j hj, alignTol_real, hl, if_neg (by decide)] at hc
    refine hd i j (by omega) hj (lt_trans hc ?_)
    norm_num
  obtain ⟨x1, -, -, n, hF, hne⟩ := hx i j hij hj hwij
  have x3 : 3 * s.iatom < s.n3n := by omega
  have b3 : 3 * b + 1 < s.n3n := by omega
  have back : ∀ c < s.nvib, ∀ r < s.n3n, columnEntry q.lxm c r = 1 * m₁.lxm r c := fun c hc r hr => by
    rw [columnEntry_toVec t1 c r (by omega) hr, one_mul]
  rw [back i (by omega) _ x3, one_mul] at x1
  rw [firstTurn_sign x3 b3 (.inl rfl) (.inl rfl) (back i (by omega)) (back j hj)] at hF
  rw [turnTest_sign x3 b3 (back i (by omega)) (back j hj)] at hne
  simp only [one_mul] at hne
  -- both runs obey the sign rule
  have rule : ∀ {o : Oracles ℝ ι} {m : ModesOut ℝ ι}, runModes s o fc2 = some m → Paired s.nvib (alignTol s.linear) (vecOf m.freq) →
      |vecOf m.freq i - vecOf m.freq j| < alignTol s.linear → 1 / 50000 ≤ |m.lxm (3 * s.iatom) i| →
      FirstTurn s.axisOrder n (3 * s.iatom) (3 * b) i j m.lxm →
      0 ≤ (turnTest s.axisOrder n (3 * s.iatom) (3 * b) i j m.lxm).1 *
        (turnTest s.axisOrder n (3 * s.iatom) (3 * b) i j m.lxm).2 := by
    intro o m hm pd hc hx hF
    obtain ⟨l, l', hl1, el, -⟩ := sym_modes_pair hs hm pd i j hij hj hc
    have b1 : ∀ r < s.n3n, m.lxm r i = 1 * l' r i := fun r _ => by rw [(el r).1, one_mul]
    have b2 : ∀ r < s.n3n, m.lxm r j = 1 * l' r j := fun r _ => by rw [(el r).2, one_mul]
    rw [firstTurn_sign x3 b3 (.inl rfl) (.inl rfl) b1 b2] at hF
    rw [turnTest_sign x3 b3 b1 b2, one_mul, one_mul]
    rw [(el _).1] at hx
    have hnt : allTiny (3 * s.iatom) i j l = false := by
      rw [← Bool.not_eq_true]
      intro ht
      exact absurd hx (not_le.2 (align_small (by omega) hl1 x3 ht))
    unfold alignLxm at hl1
    simp only [Option.bind_eq_bind, Option.bind_eq_some_iff] at hl1
    obtain ⟨θ, -, hfx⟩ := hl1
    rw [hnt] at hfx
    exact fixSign_rule (by omega) hl hbud x3 b3 hfx n hF
  have r1 := rule hm pd hc x1 hF
  have r2 := rule hm' pd' hc' (by
      rw [ea _ x3, abs_mul]
      rcases ha with rfl | rfl <;> simpa using x1) ((firstTurn_sign x3 b3 ha he' ea eb).2 hF)
  rw [turnTest_sign x3 b3 ea eb] at r2
  dsimp only at r2
  have r3 := lt_of_le_of_ne r1 (Ne.symm hne)
  rcases ha with rfl | rfl <;> rcases he' with rfl | rfl <;> first | rfl | (exfalso; nlinarith)


/-! ### Examples -/

/-- The unit vectors in the order `p`, the first two turned by an angle with cosine `c` and sine `t`. -/
noncomputable def turnedVecs (p : Nat → Nat) (c t : ℝ) : Mat ℝ := fun r k =>
  if k = 0 then c * (if r = p 0 then 1 else 0) + t * (if r = p 1 then 1 else 0)
  else if k = 1 then c * (if r = p 1 then 1 else 0) - t * (if r = p 0 then 1 else 0)
  else if r = p k then 1 else 0

/-- Eigensolvers that are exact but differ in the vectors they choose in a twofold eigenspace. -/
noncomputable def turnedOracles (n : Nat) (p : Nat → Nat) (c t : ℝ) : Oracles ℝ Nat := by
  classical
  exact {
    eigen := fun m =>
      if (∀ i j, i < n → j < n → i ≠ j → m i j = 0) ∧ m (p 0) (p 0) = m (p 1) (p 1) then
        ((List.range n).map fun i => m (p i) (p i), turnedVecs p c t)
      else if h : Symm2 n m then Classical.choose (eigen_exists n m h) else (List.replicate n 0, fun _ _ => 0)
    eigen2 := fun p v q => Classical.choose (eigen2_exists p v q)
    fuel := 4, irrepOf := fun _ _ => some 0, irrepA := 0 }

theorem turnedOracles_eigen2 (n : Nat) (p : Nat → Nat) (c t a v b : ℝ) :
    IsEigen2 a v b ((turnedOracles n p c t).eigen2 a v b) := Classical.choose_spec (eigen2_exists a v b)

section Turned
variable {n : Nat} {p : Nat → Nat} (hp : ∀ i < n, p i < n) (hpp : ∀ i, p (p i) = i) {c t : ℝ} (hc : c ^ 2 + t ^ 2 = 1)
include hp hpp hc

theorem turnedOracles_length (m : Mat ℝ) : ((turnedOracles n p c t).eigen m).1.length = n := by
  unfold turnedOracles
  dsimp only
  split_ifs with h1 h2
  · simp
  · exact (Classical.choose_spec (eigen_exists n m h2)).1
  · simp

theorem turnedOracles_exact (h2 : 2 ≤ n) (m : Mat ℝ) (hs : Symm2 n m) : IsEigen n m ((turnedOracles n p c t).eigen m) := by
  unfold turnedOracles
  dsimp only
  split_ifs with h1
  · obtain ⟨hd, he⟩ := h1
    have inj : ∀ i j, p i = p j → i = j := fun i j h => by rw [← hpp i, h, hpp]
    have p01 : p 0 ≠ p 1 := fun h => by have := inj _ _ h; omega
    have sum1 : ∀ (f : Nat → ℝ) (k : Nat), k < n → ∑ a ∈ range n, f a * (if a = p k then 1 else 0) = f (p k) := by
      intro f k hk
      simp only [mul_ite, mul_one, mul_zero]
      rw [sum_ite_eq', if_pos (mem_range.2 (hp k hk))]
    have col : ∀ (f : Nat → ℝ) (k : Nat), k < n → ∑ a ∈ range n, f a * turnedVecs p c t a k =
        if k = 0 then c * f (p 0) + t * f (p 1) else if k = 1 then c * f (p 1) - t * f (p 0) else f (p k) := by
      intro f k hk
      unfold turnedVecs
      split_ifs
      · rw [sum_congr rfl (g := fun a => c * (f a * (if a = p 0 then 1 else 0)) + t * (f a * (if a = p 1 then 1 else 0)))
          (fun a _ => by ring), sum_add_distrib, ← mul_sum, ← mul_sum, sum1 f 0 (by omega), sum1 f 1 (by omega)]
      · rw [sum_congr rfl (g := fun a => c * (f a * (if a = p 1 then 1 else 0)) - t * (f a * (if a = p 0 then 1 else 0)))
          (fun a _ => by ring), sum_sub_distrib, ← mul_sum, ← mul_sum, sum1 f 0 (by omega), sum1 f 1 (by omega)]
      · exact sum1 f k hk
    have val : ∀ i k, turnedVecs p c t (p i) k = if k = 0 then (if i = 0 then c else if i = 1 then t else 0)
        else if k = 1 then (if i = 1 then c else if i = 0 then -t else 0) else if i = k then 1 else 0 := by
      intro i k
      unfold turnedVecs
      have e : ∀ j, (p i = p j) ↔ i = j := fun j => ⟨inj i j, fun h => by rw [h]⟩
      simp only [e]
      split_ifs <;> first | omega | ring
    refine ⟨by simp, fun i j hi hj => ?_, fun i l hl a ha => ?_⟩
    · rw [col _ j hj]
      rcases i with _ | _ | i <;> rcases j with _ | _ | j <;> simp [val] <;>
        first | linarith | (split_ifs <;> first | rfl | omega)
    · have hi : i < n := by
        obtain ⟨h, -⟩ := List.getElem?_eq_some_iff.1 hl
        simpa using h
      simp only [List.getElem?_map, List.getElem?_range hi, Option.map_some, Option.some.injEq] at hl
      subst hl
      rw [col _ i hi]
      have hm : ∀ k < n, m a (p k) = m (p k) (p k) * (if a = p k then 1 else 0) := by
        intro k hk
        split_ifs with h
        · rw [h, mul_one]
        · rw [hd _ _ ha (hp k hk) h, mul_zero]
      unfold turnedVecs
      rcases i with _ | _ | i
      · simp only [if_true]
        rw [hm 0 (by omega), hm 1 (by omega), he]
        ring
      · simp only [zero_add, one_ne_zero, if_false, if_true]
        rw [hm 0 (by omega), hm 1 (by omega), he]
        ring
      · simp only [Nat.add_eq_zero_iff, Nat.reduceEqDiff, one_ne_zero, and_false, if_false, hm (i + 1 + 1) hi]
  · exact Classical.choose_spec (eigen_exists n m hs)

omit hc in
theorem turned_raw (h2 : 2 ≤ n) (s : SpectroIn ℝ) (W : Nat → ℝ) (hax : s.axes = idAxes) (hm : s.weights = fun _ => 1)
    (hn : s.n3n = n) (hna : n = 3 * s.natom) (hW : ∀ i, 0 ≤ W i) (hd : ∀ i j, i < j → j < n → W (p j) ≤ W (p i))
    (h01 : W (p 0) = W (p 1)) :
    (rawModes s (turnedOracles n p c t) (diagHessian W)).1 = (List.range n).map (fun i => W (p i)) ∧
    ∀ r, ∀ k < n, (rawModes s (turnedOracles n p c t) (diagHessian W)).2 r k = turnedVecs p c t r k := by
  subst hn
  have hraw := diag_raw s W p hax hm hna hp hW hd
  have hsec : ∀ i j, i < s.n3n → j < s.n3n → formSec s.n3n (fun i j => FACT2 * rot2nd s.natom s.axes (diagHessian W) i j)
      (fun i => (Arith.lit 1.0 : ℝ) / Arith.sqrt (s.weights i)) i j = if i = j then (W i / waveUnit) ^ 2 else 0 := by
    intro i j hi hj
    rw [hax, hm, hna]
    exact diag_secular _ _ _ _ (by omega) (by omega)
  have he : (turnedOracles s.n3n p c t).eigen (formSec s.n3n (fun i j => FACT2 * rot2nd s.natom s.axes (diagHessian W) i j)
      (fun i => (Arith.lit 1.0 : ℝ) / Arith.sqrt (s.weights i))) =
      ((List.range s.n3n).map fun i => (W (p i) / waveUnit) ^ 2, turnedVecs p c t) := by
    unfold turnedOracles
    dsimp only
    rw [if_pos]
    · refine Prod.ext (List.map_congr_left fun i hi => ?_) rfl
      have := hp i (List.mem_range.1 hi)
      rw [hsec _ _ this this, if_pos rfl]
    · refine ⟨fun i j hi hj hij => by rw [hsec i j hi hj, if_neg hij], ?_⟩
      rw [hsec _ _ (hp 0 (by omega)) (hp 0 (by omega)), hsec _ _ (hp 1 (by omega)) (hp 1 (by omega)), if_pos rfl, if_pos rfl, h01]
  have hsort : (((List.range s.n3n).map fun i => (W (p i) / waveUnit) ^ 2).zipIdx.mergeSort (eigenLe true)) =
      ((List.range s.n3n).map fun i => (W (p i) / waveUnit) ^ 2).zipIdx := by
    have hw := waveUnit_pos
    refine List.mergeSort_of_pairwise ?_
    rw [List.pairwise_iff_getElem]
    intro i j hi hj hij
    simp only [List.length_zipIdx, List.length_map, List.length_range] at hi hj
    simp only [List.getElem_zipIdx, List.getElem_map, List.getElem_range, eigenLe, if_true]
    rw [Bool.not_eq_true', ← Bool.not_eq_true, lt_real, not_lt]
    have := hd i j hij hj
    have := hW (p j)
    gcongr
  unfold rawModes
  simp only [he, symmEigenDecomp, hsort]
  constructor
  · have hw := waveUnit_pos
    rw [List.zipIdx_map_fst, toWavenumbers, List.map_map]
    refine List.map_congr_left fun i _ => ?_
    have h0 := hW (p i)
    simp only [Function.comp]
    rw [toWavenumber_real, if_neg (not_lt.2 (sq_nonneg _)), Real.sqrt_sq (by positivity)]
    field_simp
  · intro r k hk
    rw [List.zipIdx_map_snd]
    simp [List.getD_eq_getElem?_getD, List.getElem?_range', hk]

/-- The wavenumbers of the example: coordinate `p i` has the `i`-th level. -/
noncomputable def turnedLevels (n : Nat) (p : Nat → Nat) : Nat → ℝ := fun i => if i < n then pairLevels (p i) else 0

omit hpp hc in
theorem turnedLevels_nonneg (h12 : n ≤ 12) (i : Nat) : 0 ≤ turnedLevels n p i := by
  unfold turnedLevels
  split
  · have := hp i (by assumption)
    unfold pairLevels
    split
    · norm_num
    · have : (p i : ℝ) ≤ 12 := by exact_mod_cast (by omega)
      linarith
  · exact le_rfl

omit hc in
theorem turnedLevels_p {i : Nat} (hi : i < n) : turnedLevels n p (p i) = pairLevels i := by
  rw [turnedLevels, if_pos (hp i hi), hpp]

omit hp hpp hc in
theorem pairLevels_inj {i j : Nat} (h : pairLevels i = pairLevels j) : i = j ∨ i ≤ 1 ∧ j ≤ 1 := by
  by_contra hne
  rcases Nat.lt_trichotomy i j with e | e | e
  · have := pairLevels_gap e (by omega)
    linarith
  · omega
  · have := pairLevels_gap e (by omega)
    linarith

omit hp hpp hc in
theorem pairLevels_close {i j : Nat} (hij : i < j) (h : |pairLevels i - pairLevels j| < 50) : i = 0 ∧ j = 1 := by
  by_cases h2 : 2 ≤ j
  · have := pairLevels_gap hij h2
    have := le_abs_self (pairLevels i - pairLevels j)
    linarith
  · omega

omit hp hpp hc in
theorem idAxes_orthogonal : Orthogonal3 idAxes := by
  constructor <;> intro p q hp hq <;> interval_cases p <;> interval_cases q <;> simp [idAxes, sum_range_succ]

omit hp hpp hc in
theorem diagHessian_symm (W : Nat → ℝ) (n : Nat) : Symm2 n (diagHessian W) := by
  intro a b _ _
  unfold diagHessian
  by_cases e : a = b
  · subst e; rfl
  · rw [if_neg e, if_neg (Ne.symm e)]

omit hc in
theorem turned_support (h12 : n ≤ 12) {i : Nat} (hi : i < n) {u : Nat → ℝ}
    (h : ∀ v : Nat → ℝ, waveUnit ^ 2 * FACT2 * form2 n (diagHessian (turnedLevels n p)) v u =
      pairLevels i * |pairLevels i| * massForm n (fun _ => 1) v u) :
    ∀ r < n, u r ≠ 0 → ∃ k < n, r = p k ∧ (k = i ∨ k ≤ 1 ∧ i ≤ 1) := by
  intro r hr hne
  have := diagonal_motion h r hr hne
  refine ⟨p r, hp r hr, (hpp r).symm, ?_⟩
  apply pairLevels_inj
  have pos : 0 < pairLevels i := by
    unfold pairLevels
    split
    · norm_num
    · have : (i : ℝ) ≤ 12 := by exact_mod_cast (by omega)
      linarith
  have w0 := waveUnit_pos
  have f0 := fact2_real_pos
  have lr : turnedLevels n p r = pairLevels (p r) := by rw [turnedLevels, if_pos hr]
  have nn := turnedLevels_nonneg hp h12 r
  rw [lr] at this nn
  rw [mul_div_cancel₀ _ (by positivity), abs_of_pos pos, ← pow_two] at this
  exact (pow_left_inj₀ nn pos.le (by norm_num)).1 this

omit hc in
theorem turned_twofold (h12 : n ≤ 12) {nvib : Nat} (hv0 : 2 ≤ nvib) (hv : nvib ≤ n) {w : Nat → ℝ} {d : Nat → Nat → ℝ}
    (hw : ∀ i < nvib, w i = pairLevels i)
    (hd : ∀ i < nvib, ∃ e : ℝ, (e = 1 ∨ e = -1) ∧ ∀ r < n, d i r = if r = p i then e else 0) :
    TwoFold nvib n (waveUnit ^ 2 * FACT2) (diagHessian (turnedLevels n p)) (fun _ => 1) w d := by
  have inj : ∀ i j, p i = p j → i = j := fun i j h => by rw [← hpp i, h, hpp]
  -- a displacement supported on the coordinates of two modes is a combination of them
  have comb : ∀ i j, i < nvib → j < nvib → i ≠ j → ∀ u : Nat → ℝ, (∀ r < n, r ≠ p i → r ≠ p j → u r = 0) →
      ∃ a b, ∀ r < n, u r = a * d i r + b * d j r := by
    intro i j hi hj hij u hu
    obtain ⟨e, he, h1⟩ := hd i hi
    obtain ⟨f, hf, h2⟩ := hd j hj
    refine ⟨u (p i) * e, u (p j) * f, fun r hr => ?_⟩
    rw [h1 r hr, h2 r hr]
    have e2 : e * e = 1 := by rcases he with rfl | rfl <;> norm_num
    have f2 : f * f = 1 := by rcases hf with rfl | rfl <;> norm_num
    have pij : p i ≠ p j := fun h => hij (inj _ _ h)
    by_cases r1 : r = p i
    · subst r1
      rw [if_pos rfl, if_neg pij]
      linear_combination (-u (p i)) * e2
    by_cases r2 : r = p j
    · subst r2
      rw [if_neg r1, if_pos rfl]
      linear_combination (-u (p j)) * f2
    · rw [if_neg r1, if_neg r2, hu r hr r1 r2]
      ring
  intro i hi
  rw [hw i hi]
  by_cases h1 : i ≤ 1
  · refine ⟨1 - i, by omega, ?_, fun u hu => ?_⟩
    · rw [hw _ (by omega)]
      unfold pairLevels
      rw [if_pos (by omega), if_pos h1]
    · refine comb i (1 - i) hi (by omega) (by omega) u fun r hr hne hne' => ?_
      by_contra h
      obtain ⟨k, hk, e, h'⟩ := turned_support hp hpp h12 (by omega) hu r hr h
      have : k = i ∨ k = 1 - i := by omega
      rcases this with rfl | rfl
      · exact hne e
      · exact hne' e
  · refine ⟨i, hi, hw i hi, fun u hu => ?_⟩
    obtain ⟨a, b, hab⟩ := comb i 0 hi (by omega) (by omega) u fun r hr hne _ => by
      by_contra h
      obtain ⟨k, hk, e, h'⟩ := turned_support hp hpp h12 (by omega) hu r hr h
      exact hne (by rw [e]; congr 1; omega)
    have hb : b = 0 := by
      obtain ⟨f, hf, h2⟩ := hd 0 (by omega)
      obtain ⟨e, -, h3⟩ := hd i hi
      by_contra hb
      have u0 : u (p 0) ≠ 0 := by
        rw [hab _ (hp 0 (by omega)), h2 _ (hp 0 (by omega)), if_pos rfl, h3 _ (hp 0 (by omega)),
          if_neg (fun h => by have := inj _ _ h; omega), mul_zero, zero_add]
        refine mul_ne_zero hb ?_
        rcases hf with rfl | rfl <;> norm_num
      obtain ⟨k, hk, e, h'⟩ := turned_support hp hpp h12 (by omega) hu (p 0) (hp 0 (by omega)) u0
      have := inj _ _ e
      omega
    exact ⟨a, 0, fun r hr => by rw [hab r hr, hb]; ring⟩

/-- Runs with these solvers, for a molecule with unit masses whose first atom moves along x in the first of two
degenerate modes. -/
theorem turned_facts (h2 : 2 ≤ n) (h12 : n ≤ 12) (s : SpectroIn ℝ) (hax : s.axes = idAxes) (hm : s.weights = fun _ => 1)
    (hn : s.n3n = n) (hna : n = 3 * s.natom) (hr : axialTop s.rotor) (hv0 : 2 ≤ s.nvib) (hv : s.nvib ≤ n)
    (hi2 : s.i2vib = s.nvib * (s.nvib + 1) / 2) (hb : s.linear = true ∨ s.buddy.isSome) (hat : s.iatom = 0) (hp0 : p 0 = 0)
    (hct : 1 / 100000 ≤ |c|) (f3x : T3 ℝ) (f4x : T4 ℝ) :
    ∃ out q, run s (turnedOracles n p c t) (.quartic (diagHessian (turnedLevels n p)) f3x f4x) = some out ∧
      run s (turnedOracles n p c t) (.harmonic (diagHessian (turnedLevels n p))) = some q ∧
      out.lxm = q.lxm ∧ (∀ i j, Mode.i2 i j ∈ out.resonances.modes ↔ i = 0 ∧ j = 1) ∧
      (∀ i < s.nvib, entryOf q.harms i = pairLevels i) ∧
      (s.linear = true → columnEntry q.lxm 0 0 * columnEntry q.lxm 1 1 ≤ 0) ∧
      ∀ i < s.nvib, ∃ e : ℝ, (e = 1 ∨ e = -1) ∧
        ∀ r < n, columnEntry q.lxm i r = (if r = p i then e else 0) ∧ columnEntry q.lx i r = if r = p i then e else 0 := by
  subst hn
  obtain ⟨hs, -⟩ := axial_sym hr
  have inj : ∀ i j, p i = p j → i = j := fun i j h => by rw [← hpp i, h, hpp]
  obtain ⟨raw1, raw2⟩ := turned_raw (c := c) (t := t) hp hpp h2 s (turnedLevels s.n3n p) hax hm rfl hna
    (turnedLevels_nonneg hp h12) (fun i j hij hj => by
      rw [turnedLevels_p hp hpp hj, turnedLevels_p hp hpp (by omega)]
      by_cases h2 : 2 ≤ j
      · linarith [pairLevels_gap hij h2]
      · have e1 : j = 1 := by omega
        have e0 : i = 0 := by omega
        subst e1 e0
        norm_num [pairLevels])
    (by rw [turnedLevels_p hp hpp (by omega), turnedLevels_p hp hpp (by omega)]; norm_num [pairLevels])
  have lev : ∀ i < s.nvib, vecOf (rawModes s (turnedOracles s.n3n p c t) (diagHessian (turnedLevels s.n3n p))).1 i =
      pairLevels i := by
    intro i hi
    rw [raw1, vecOf, List.getD_eq_getElem?_getD, List.getElem?_map, List.getElem?_range (by omega)]
    exact turnedLevels_p hp hpp (by omega)
  have paired : ∀ T : ℝ, T ≤ 50 → Paired s.nvib T
      (vecOf (rawModes s (turnedOracles s.n3n p c t) (diagHessian (turnedLevels s.n3n p))).1) := by
    intro T hT i j k hi hj hk
    rw [lev i hi, lev j hj, lev k hk]
    exact pairLevels_paired s.nvib T hT i j k hi hj hk
  have T50 : alignTol s.linear ≤ (50 : ℝ) := by
    rw [alignTol_real]
    split <;> norm_num
  have Tpos : (0 : ℝ) < alignTol s.linear := by
    rw [alignTol_real]
    split <;> norm_num
  have v00 : turnedVecs p c t 0 0 = c := by
    have : ¬ (0 = p 1) := fun h => by
      rw [← hp0] at h
      have := inj _ _ h
      omega
    simp [turnedVecs, hp0, this]
  have hdone := (c99_completes_partial s (turnedOracles s.n3n p c t) (diagHessian (turnedLevels s.n3n p)) f3x f4x hr
    (by omega) hv hi2 (turnedOracles_length hp hpp hc) (fun a v b => (turnedOracles_eigen2 _ p c t a v b).1) le_rfl
    (by split <;> exact paired _ (by norm_num))).2 (by
      intro i j hij hj hc'
      rw [lev i (by omega), lev j hj] at hc'
      obtain ⟨rfl, rfl⟩ := pairLevels_close hij (lt_trans hc' (by split <;> norm_num))
      refine ⟨.inl ⟨0, by simp [hat], 0, by simp, ?_⟩, hb⟩
      rw [raw2 0 0 (by omega), v00]
      exact hct)
  obtain ⟨out, hout⟩ := Option.isSome_iff_exists.1 hdone
  obtain ⟨m, F4, hmm, -, -⟩ := run_quartic hout
  obtain ⟨ef, -⟩ := runModes_sym hs hmm
  have hev := turnedOracles_exact hp hpp hc h2
  have levm : ∀ i < s.nvib, vecOf m.freq i = pairLevels i := fun i hi => by rw [ef, lev i hi]
  have sep : ∀ a b, a < s.nvib → b < s.nvib → |vecOf m.freq a - vecOf m.freq b| < alignTol s.linear →
      vecOf m.freq a = vecOf m.freq b := by
    intro a b ha hb h
    rw [levm a ha, levm b hb] at h ⊢
    have key : ∀ {a b : Nat}, a < b → |pairLevels a - pairLevels b| < alignTol s.linear → pairLevels a = pairLevels b := by
      intro a b hab h
      obtain ⟨rfl, rfl⟩ := pairLevels_close hab (lt_of_lt_of_le h T50)
      norm_num [pairLevels]
    rcases Nat.lt_trichotomy a b with e | e | e
    · exact key e h
    · rw [e]
    · rw [abs_sub_comm] at h
      exact (key e h).symm
  obtain ⟨len, -, lxe, -⟩ := sym_modes_exact hs hna hv hev hmm sep
  obtain ⟨tv, hmd⟩ := quartic_modes hmm hout
  have tv' : ∃ v', toVec s.n3n s.n3n m.lx = some v' := by
    rw [toVec_square s.n3n (by omega)]
    exact ⟨_, rfl⟩
  obtain ⟨v', tv'⟩ := tv'
  have hfirst : ∃ h, firstFreqs m.freq s.nvib = some h := by
    unfold firstFreqs
    rw [if_neg (by omega)]
    exact ⟨_, rfl⟩
  obtain ⟨hh, hfirst⟩ := hfirst
  have hq : ∃ q, run s (turnedOracles s.n3n p c t) (.harmonic (diagHessian (turnedLevels s.n3n p))) = some q := by
    unfold run
    simp only [Derivative.fc2, hmm, hfirst, tv, tv', Option.bind_eq_bind, Option.bind_some]
    exact ⟨_, rfl⟩
  obtain ⟨q, hq⟩ := hq
  obtain ⟨m₂, hm₂, q1, q2, -, qf⟩ := harmonic_facts hq
  obtain rfl := Option.some.inj (hmm.symm.trans hm₂)
  have harms : ∀ i < s.nvib, entryOf q.harms i = pairLevels i := fun i hi => by rw [← qf i hi, levm i hi]
  have lxl : ∀ i < s.nvib, ∀ r < s.n3n, columnEntry q.lx i r = columnEntry q.lxm i r := by
    intro i hi r hr
    rw [columnEntry_toVec q1 i r (by omega) hr, columnEntry_toVec q2 i r (by omega) hr, lxe r i hr (by omega), hm]
    simp
  obtain ⟨N1, N2⟩ := c100_normal_modes s _ _ q hs hna hv (fun a _ => by rw [hm]; norm_num)
    (by rw [hax]; exact idAxes_orthogonal) (diagHessian_symm _ _) hev hq (by
      intro a b ha hb h
      have := sep a b ha hb (by rw [qf a ha, qf b hb, alignTol_real]; convert h using 2; norm_num)
      rwa [qf a ha, qf b hb] at this)
  rw [hax, hm] at N1 N2
  simp only [applyAxes_id] at N1 N2
  -- where the columns vanish
  have supp : ∀ i < s.nvib, ∀ r < s.n3n, columnEntry q.lx i r ≠ 0 → ∃ k < s.n3n, r = p k ∧ (k = i ∨ k ≤ 1 ∧ i ≤ 1) := by
    intro i hi r hr hne
    have N := N1 i hi
    rw [harms i hi] at N
    exact turned_support hp hpp h12 (by omega) N r hr hne
  have one : ∀ (f : Nat → ℝ) (k : Nat), k < s.n3n → (∀ r < s.n3n, r ≠ p k → f r = 0) → ∑ r ∈ range s.n3n, f r = f (p k) := by
    intro f k hk hz
    rw [sum_eq_single (p k) (fun r hr hne => hz r (mem_range.1 hr) hne) (fun h => absurd (mem_range.2 (hp k hk)) h)]
  have pair := sym_modes_pair hs hmm (by rw [ef]; exact paired _ T50) 0 1 (by omega) (by omega) (by
    rw [levm 0 (by omega), levm 1 (by omega)]
    norm_num [pairLevels, Tpos])
  obtain ⟨l, l', hl1, el, er⟩ := pair
  have c10 : columnEntry q.lx 1 0 = 0 := by
    rw [lxl 1 (by omega) 0 (by omega), columnEntry_toVec q1 1 0 (by omega) (by omega), (el 0).2]
    have := c51_first_x_partial _ 0 1 (by omega) l l' hl1 (by simp only [hat]; omega) (by
      simp only [hat, mul_zero]
      rw [(er 0).1, raw2 0 0 (by omega), v00]
      exact hct)
    simpa only [hat, mul_zero] using this
  have unit : ∀ i < s.nvib, (∀ r < s.n3n, r ≠ p i → columnEntry q.lx i r = 0) → ∃ e : ℝ, (e = 1 ∨ e = -1) ∧
      ∀ r < s.n3n, columnEntry q.lxm i r = (if r = p i then e else 0) ∧ columnEntry q.lx i r = if r = p i then e else 0 := by
    intro i hi hz
    have h1 := N2 i hi i hi
    rw [if_pos rfl, massForm, one _ i (by omega) (fun r hr hne => by rw [hz r hr hne, mul_zero]), one_mul] at h1
    refine ⟨_, mul_self_eq_one_iff.1 h1, fun r hr => ?_⟩
    rw [← lxl i hi r hr, and_self]
    split_ifs with e
    · rw [e]
    · exact hz r hr e
  have col1 := unit 1 (by omega) (fun r hr hne => by
    by_contra h
    obtain ⟨k, hk, e, h'⟩ := supp 1 (by omega) r hr h
    have : k ≠ 1 := fun h => hne (by rw [e, h])
    obtain rfl : k = 0 := by omega
    rw [e, hp0] at h
    exact h c10)
  have col0 := unit 0 (by omega) (fun r hr hne => by
    by_contra h
    obtain ⟨k, hk, e, h'⟩ := supp 0 (by omega) r hr h
    have : k ≠ 0 := fun h => hne (by rw [e, h])
    obtain rfl : k = 1 := by omega
    obtain ⟨e1, he1, h1⟩ := col1
    have hz := N2 0 (by omega) 1 (by omega)
    rw [if_neg (by omega), massForm, one _ 1 (by omega) (fun r hr hne => by rw [(h1 r hr).2, if_neg hne, mul_zero]),
      (h1 (p 1) (hp 1 (by omega))).2, if_pos rfl, ← e] at hz
    rcases he1 with rfl | rfl
    · exact h (by linarith)
    · exact h (by linarith))
  refine ⟨out, q, hout, hq, ?_, ?_, harms, ?_, fun i hi => ?_⟩
  · exact Option.some.inj (tv.symm.trans q1)
  · intro i j
    rw [hmd, mem_degModes_sym hs]
    constructor
    · rintro (⟨w, -, e⟩ | ⟨w, hw, e⟩ | ⟨w, -, -, -, e⟩)
      · cases e
      · injection e with e1 e2
        have : (i, j) = w := by rw [e1, e2]
        rw [← this, degDoubles_iff] at hw
        obtain ⟨⟨h1, h2⟩, h3, -⟩ := hw
        rw [levm i (by omega), levm j h2] at h3
        exact pairLevels_close h1 (lt_trans h3 (by norm_num))
      · cases e
    · rintro ⟨rfl, rfl⟩
      refine .inr (.inl ⟨(0, 1), ?_, rfl⟩)
      have hnt : degTriples s.nvib (vecOf m.freq) = [] := by
        rw [List.eq_nil_iff_forall_not_mem]
        rintro ⟨a, b, d⟩ h
        rw [degTriples_iff] at h
        obtain ⟨⟨h1, h2, h3⟩, h4, h5, -⟩ := h
        rw [levm a (by omega), levm b (by omega)] at h4
        rw [levm a (by omega), levm d (by omega)] at h5
        have := pairLevels_close h1 (lt_trans h4 (by norm_num))
        have := pairLevels_close (show a < d by omega) (lt_trans h5 (by norm_num))
        omega
      rw [degDoubles_iff, hnt, levm 0 (by omega), levm 1 (by omega)]
      refine ⟨⟨by omega, by omega⟩, ?_⟩
      norm_num [pairLevels, inTriples]
  · intro hl
    have := c51_linear_sign_partial _ 0 1 (by omega) l l' hl hl1 (by simp only [hat]; omega)
    simp only [hat, mul_zero, zero_add] at this
    rwa [columnEntry_toVec q1 0 0 (by omega) (by omega), columnEntry_toVec q1 1 1 (by omega) (by omega), (el 0).1, (el 1).2]
  · by_cases h0 : i = 0
    · rw [h0]
      exact col0
    by_cases h1 : i = 1
    · rw [h1]
      exact col1
    refine unit i hi fun r hr hne => ?_
    by_contra h
    obtain ⟨k, hk, e, h'⟩ := supp i hi r hr h
    exact hne (by rw [e]; congr 1; omega)

end Turned

theorem pairLevels_separated {nvib : Nat} {T : ℝ} (hT : T ≤ 50) {w : Nat → ℝ} (hw : ∀ i < nvib, w i = pairLevels i) :
    Separated nvib T w := by
  intro i j hi hj h
  rw [hw i hi, hw j hj] at h ⊢
  have key : ∀ {a b : Nat}, a < b → |pairLevels a - pairLevels b| < T → pairLevels a = pairLevels b := by
    intro a b hab h
    obtain ⟨rfl, rfl⟩ := pairLevels_close hab (lt_of_lt_of_le h hT)
    norm_num [pairLevels]
  rcases Nat.lt_trichotomy i j with e | e | e
  · exact key e h
  · rw [e]
  · rw [abs_sub_comm] at h
    exact (key e h).symm

/-- The solvers used below: for a twofold eigenvalue they return different vectors. -/
example : turnedVecs id 1 0 0 0 ≠ turnedVecs id (3 / 5) (4 / 5) 0 0 := by norm_num [turnedVecs]

/-- The hypotheses of `c100_linear` are met by two different exact solvers and a linear molecule of three atoms with a
twofold vibration. -/
example : ∃ out out', run exampleLine (turnedOracles 9 id 1 0) (.quartic (diagHessian (turnedLevels 9 id)) (fun _ _ _ => 1)
      fun _ _ _ _ => 1) = some out ∧
    run exampleLine (turnedOracles 9 id (3 / 5) (4 / 5)) (.quartic (diagHessian (turnedLevels 9 id)) (fun _ _ _ => 1)
      fun _ _ _ _ => 1) = some out' ∧ SameResults out' out := by
  have hp : ∀ i < 9, id i < 9 := fun i hi => hi
  obtain ⟨out, q, h, hq, -, -, har, -, hcol⟩ := turned_facts (n := 9) (p := id) (c := 1) (t := 0) hp (fun _ => rfl)
    (by norm_num) (by omega) (by omega) exampleLine rfl rfl rfl rfl (.inr (.inr rfl)) (by decide) (by decide) rfl (.inl rfl)
    rfl rfl (by norm_num) (fun _ _ _ => 1) fun _ _ _ _ => 1
  obtain ⟨out', q', h', hq', -, -, -, -, hcol'⟩ := turned_facts (n := 9) (p := id) (c := 3 / 5) (t := 4 / 5) hp (fun _ => rfl)
    (by norm_num) (by omega) (by omega) exampleLine rfl rfl rfl rfl (.inr (.inr rfl)) (by decide) (by decide) rfl (.inl rfl)
    rfl rfl (by norm_num) (fun _ _ _ => 1) fun _ _ _ _ => 1
  refine ⟨out, out', h, h', c100_linear exampleLine _ _ _ _ _ out out' q q' rfl rfl rfl (by decide) (by decide)
    (fun _ _ => by norm_num [exampleLine]) idAxes_orthogonal (by decide) (diagHessian_symm _ _)
    (fun _ _ _ _ _ _ => ⟨rfl, rfl⟩) (fun _ _ _ _ _ _ _ _ => ⟨rfl, rfl, rfl⟩)
    (turnedOracles_exact hp (fun _ => rfl) (by norm_num) (by omega))
    (turnedOracles_exact hp (fun _ => rfl) (by norm_num) (by omega))
    (turnedOracles_eigen2 _ _ _ _) (turnedOracles_eigen2 _ _ _ _) h h' hq hq' (pairLevels_separated (by norm_num) har)
    (turned_twofold hp (fun _ => rfl) (by omega) (by decide) (by decide) har fun i hi => ?_) fun i j hij hj e => ?_⟩
  · obtain ⟨e, he, hc⟩ := hcol i hi
    refine ⟨e, he, fun r hr => ?_⟩
    rw [show exampleLine.axes = idAxes from rfl, applyAxes_id]
    exact (hc r hr).2
  · have hj4 : j < 4 := hj
    rw [har i (show i < 4 by omega), har j hj] at e
    obtain ⟨rfl, rfl⟩ : i = 0 ∧ j = 1 := by have := pairLevels_inj e; omega
    obtain ⟨e0, he0, h0⟩ := hcol 0 (by decide)
    obtain ⟨e1, he1, h1⟩ := hcol 1 (by decide)
    obtain ⟨e1', he1', h1'⟩ := hcol' 1 (by decide)
    refine ⟨?_, ?_, ?_, ?_⟩
    · rw [show 3 * exampleLine.iatom = 0 from rfl, (h0 0 (by omega)).1]
      rcases he0 with rfl | rfl <;> norm_num
    · rw [show 3 * exampleLine.iatom = 0 from rfl, (h1 0 (by omega)).1]
      simp
    · rw [show 3 * exampleLine.iatom + 1 = 1 from rfl, (h1 1 (by omega)).1]
      rcases he1 with rfl | rfl <;> norm_num
    · rw [show 3 * exampleLine.iatom = 0 from rfl, (h1' 0 (by omega)).1]
      simp

/-- The same two runs meet the hypotheses of `c100_signs`. -/
example : ∃ (out out' : Output ℝ Nat) (σ : Nat → ℝ), run exampleLine (turnedOracles 9 id 1 0)
      (.quartic (diagHessian (turnedLevels 9 id)) (fun _ _ _ => 1) fun _ _ _ _ => 1) = some out ∧
    run exampleLine (turnedOracles 9 id (3 / 5) (4 / 5)) (.quartic (diagHessian (turnedLevels 9 id)) (fun _ _ _ => 1)
      fun _ _ _ _ => 1) = some out' ∧ (∀ i, σ i = 1 ∨ σ i = -1) ∧
    (∀ i < 4, ∀ r < 9, columnEntry out'.lxm i r = σ i * columnEntry out.lxm i r) ∧
    (∃ i j, Mode.i2 i j ∈ out.resonances.modes) ∧ (∀ i j, Mode.i2 i j ∈ out.resonances.modes → σ i = σ j) ∧
    (∀ M, ((turnedOracles 9 id (3 / 5) (4 / 5)).eigen M).1 = ((turnedOracles 9 id 1 0).eigen M).1) ∧
    SameResults out' out := by
  have hp : ∀ i < 9, id i < 9 := fun i hi => hi
  obtain ⟨out, q, h, hq, el, hmd, har, hneg, hcol⟩ := turned_facts (n := 9) (p := id) (c := 1) (t := 0) hp (fun _ => rfl)
    (by norm_num) (by omega) (by omega) exampleLine rfl rfl rfl rfl (.inr (.inr rfl)) (by decide) (by decide) rfl (.inl rfl)
    rfl rfl (by norm_num) (fun _ _ _ => 1) fun _ _ _ _ => 1
  obtain ⟨out', q', h', hq', el', -, -, hneg', hcol'⟩ := turned_facts (n := 9) (p := id) (c := 3 / 5) (t := 4 / 5) hp (fun _ => rfl)
    (by norm_num) (by omega) (by omega) exampleLine rfl rfl rfl rfl (.inr (.inr rfl)) (by decide) (by decide) rfl (.inl rfl)
    rfl rfl (by norm_num) (fun _ _ _ => 1) fun _ _ _ _ => 1
  have hval : ∀ M, ((turnedOracles 9 id (3 / 5) (4 / 5)).eigen M).1 = ((turnedOracles 9 id 1 0).eigen M).1 := by
    intro M
    unfold turnedOracles
    dsimp only
    split_ifs <;> rfl
  let σ : Nat → ℝ := fun i => if i < 4 then columnEntry q'.lxm i i * columnEntry q.lxm i i else 1
  have hσ : ∀ i, σ i = 1 ∨ σ i = -1 := by
    intro i
    dsimp only [σ]
    split_ifs with hi
    · obtain ⟨e, he, h1⟩ := hcol i hi
      obtain ⟨e', he', h1'⟩ := hcol' i hi
      rw [(h1 i (by omega)).1, (h1' i (by omega)).1]
      rcases he with rfl | rfl <;> rcases he' with rfl | rfl <;> norm_num
    · exact .inl rfl
  have hl : ∀ i < 4, ∀ r < 9, columnEntry out'.lxm i r = σ i * columnEntry out.lxm i r := by
    intro i hi r hr
    obtain ⟨e, he, h1⟩ := hcol i hi
    obtain ⟨e', he', h1'⟩ := hcol' i hi
    dsimp only [σ]
    rw [if_pos hi, el, el', (h1 i (by omega)).1, (h1' i (by omega)).1, (h1 r hr).1, (h1' r hr).1]
    by_cases hri : r = i
    · rcases he with rfl | rfl <;> rcases he' with rfl | rfl <;> simp [hri]
    · simp [hri]
  have hpair : ∀ i j, Mode.i2 i j ∈ out.resonances.modes → σ i = σ j := by
    intro i j hij
    obtain ⟨rfl, rfl⟩ := (hmd i j).1 hij
    obtain ⟨e0, he0, h0⟩ := hcol 0 (by decide)
    obtain ⟨e1, he1, h1⟩ := hcol 1 (by decide)
    obtain ⟨e0', he0', h0'⟩ := hcol' 0 (by decide)
    obtain ⟨e1', he1', h1'⟩ := hcol' 1 (by decide)
    have n1 := hneg rfl
    have n2 := hneg' rfl
    dsimp only [σ]
    rw [(h0 0 (by omega)).1, (h1 1 (by omega)).1] at n1
    rw [(h0' 0 (by omega)).1, (h1' 1 (by omega)).1] at n2
    rw [if_pos (by omega), if_pos (by omega), (h0 0 (by omega)).1, (h1 1 (by omega)).1, (h0' 0 (by omega)).1,
      (h1' 1 (by omega)).1]
    rcases he0 with rfl | rfl <;> rcases he1 with rfl | rfl <;> rcases he0' with rfl | rfl <;>
      rcases he1' with rfl | rfl <;> simp at n1 n2 ⊢ <;> linarith
  exact ⟨out, out', σ, h, h', hσ, hl, ⟨0, 1, (hmd 0 1).2 ⟨rfl, rfl⟩⟩, hpair, hval,
    c100_signs exampleLine _ _ _ _ _ out out' (.inr (.inr rfl)) rfl (by decide) (by decide)
    (fun _ _ _ _ _ _ => ⟨rfl, rfl⟩) (fun _ _ _ _ _ _ _ _ => ⟨rfl, rfl, rfl⟩) (turnedOracles_eigen2 _ _ _ _)
    (turnedOracles_eigen2 _ _ _ _) hval h h' σ hσ hl hpair⟩

/-- The hypotheses of `c100_normal_modes` are met. -/
example : ∃ q, run exampleLine (turnedOracles 9 id (3 / 5) (4 / 5)) (.harmonic (diagHessian (turnedLevels 9 id))) = some q ∧
    Separated exampleLine.nvib (if exampleLine.linear then 1 else 0.05) (entryOf q.harms) ∧
    ∀ m, Symm2 9 m → IsEigen 9 m ((turnedOracles 9 id (3 / 5) (4 / 5)).eigen m) := by
  have hp : ∀ i < 9, id i < 9 := fun i hi => hi
  obtain ⟨out', q', h', hq', -, -, har, -⟩ := turned_facts (n := 9) (p := id) (c := 3 / 5) (t := 4 / 5) hp (fun _ => rfl)
    (by norm_num) (by omega) (by omega) exampleLine rfl rfl rfl rfl (.inr (.inr rfl)) (by decide) (by decide) rfl (.inl rfl)
    rfl rfl (by norm_num) (fun _ _ _ => 1) fun _ _ _ _ => 1
  exact ⟨q', hq', pairLevels_separated (by split <;> norm_num) har,
    turnedOracles_exact hp (fun _ => rfl) (by norm_num) (by omega)⟩

/-- Exchanges the y components of the first and the second atom. -/
def swapY : Nat → Nat := fun i => if i = 1 then 4 else if i = 4 then 1 else i

/-- A symmetric top of four atoms with a fourfold axis that takes the first atom to the second. -/
noncomputable def exampleSquare : SpectroIn ℝ :=
  { header := [], natom := 4, n3n := 12, nvib := 6, i2vib := 21, rotor := .oblateSymmTop, linear := false
    axes := idAxes, primat := fun i => i + 1, rotcon := fun i => 3 - i, weights := fun _ => 1
    pos := fun a x => if x = 0 then (if a = 0 then 1 else if a = 2 then -1 else 0)
      else if x = 1 then (if a = 1 then 1 else if a = 3 then -1 else 0) else 0
    iatom := 0, axisOrder := 4, buddy := some 1 }

/-- The hypotheses of `c100_symmetric_top` are met by two different exact solvers; in the degenerate pair the first atom
moves along x and the second along y. -/
example : ∃ out out', run exampleSquare (turnedOracles 12 swapY 1 0) (.quartic (diagHessian (turnedLevels 12 swapY))
      (fun _ _ _ => 1) fun _ _ _ _ => 1) = some out ∧
    run exampleSquare (turnedOracles 12 swapY (3 / 5) (4 / 5)) (.quartic (diagHessian (turnedLevels 12 swapY))
      (fun _ _ _ => 1) fun _ _ _ _ => 1) = some out' ∧ SameResults out' out := by
  have hp : ∀ i < 12, swapY i < 12 := by unfold swapY; intro i hi; split_ifs <;> omega
  have hpp : ∀ i, swapY (swapY i) = i := by unfold swapY; intro i; split_ifs <;> omega
  obtain ⟨out, q, h, hq, -, -, har, -, hcol⟩ := turned_facts (n := 12) (p := swapY) (c := 1) (t := 0) hp hpp
    (by norm_num) (by omega) (by omega) exampleSquare rfl rfl rfl rfl (.inl rfl) (by decide) (by decide) rfl (.inr rfl)
    rfl rfl (by norm_num) (fun _ _ _ => 1) fun _ _ _ _ => 1
  obtain ⟨out', q', h', hq', -, -, -, -, hcol'⟩ := turned_facts (n := 12) (p := swapY) (c := 3 / 5) (t := 4 / 5) hp hpp
    (by norm_num) (by omega) (by omega) exampleSquare rfl rfl rfl rfl (.inl rfl) (by decide) (by decide) rfl (.inr rfl)
    rfl rfl (by norm_num) (fun _ _ _ => 1) fun _ _ _ _ => 1
  refine ⟨out, out', h, h', c100_symmetric_top exampleSquare _ _ _ _ _ out out' q q' 1 (.inl rfl) rfl rfl (by decide) (by decide)
    (fun _ _ => by norm_num [exampleSquare]) idAxes_orthogonal (by decide) rfl (by decide) (diagHessian_symm _ _)
    (fun _ _ _ _ _ _ => ⟨rfl, rfl⟩) (fun _ _ _ _ _ _ _ _ => ⟨rfl, rfl, rfl⟩)
    (turnedOracles_exact hp hpp (by norm_num) (by omega))
    (turnedOracles_exact hp hpp (by norm_num) (by omega))
    (turnedOracles_eigen2 _ _ _ _) (turnedOracles_eigen2 _ _ _ _) h h' hq hq' (pairLevels_separated (by norm_num) har)
    (turned_twofold hp hpp (by omega) (by decide) (by decide) har fun i hi => ?_) fun i j hij hj e => ?_⟩
  · obtain ⟨e, he, hc⟩ := hcol i hi
    refine ⟨e, he, fun r hr => ?_⟩
    rw [show exampleSquare.axes = idAxes from rfl, applyAxes_id]
    exact (hc r hr).2
  · have hj4 : j < 6 := hj
    rw [har i (show i < 6 by omega), har j hj] at e
    obtain ⟨rfl, rfl⟩ : i = 0 ∧ j = 1 := by have := pairLevels_inj e; omega
    obtain ⟨e0, he0, h0⟩ := hcol 0 (by decide)
    obtain ⟨e1, he1, h1⟩ := hcol 1 (by decide)
    obtain ⟨e1', he1', h1'⟩ := hcol' 1 (by decide)
    have a00 : columnEntry q.lxm 0 0 = e0 := by rw [(h0 0 (by omega)).1]; simp [swapY]
    have a04 : columnEntry q.lxm 0 4 = 0 := by rw [(h0 4 (by omega)).1]; simp [swapY]
    have a14 : columnEntry q.lxm 1 4 = e1 := by rw [(h1 4 (by omega)).1]; simp [swapY]
    have al : -2 * Real.pi / (4 : Nat) = -(Real.pi / 2) := by push_cast; ring
    have ht : turnTest 4 1 0 3 0 1 (fun r c => columnEntry q.lxm c r) = (-e0, e1) := by
      unfold turnTest
      simp only [al]
      rw [if_neg (by rw [Real.cos_neg, Real.cos_pi_div_two, abs_zero]; norm_num)]
      simp only [a00, a04, a14, Nat.cast_one, mul_one, Real.sin_neg, neg_neg, Real.sin_pi_div_two, mul_zero, sub_zero,
        neg_one_mul, Nat.reduceAdd]
    refine ⟨?_, ?_, ?_, 1, ⟨le_rfl, by omega, by decide, ?_, by omega⟩, ?_⟩
    · rw [show 3 * exampleSquare.iatom = 0 from rfl, a00]
      rcases he0 with rfl | rfl <;> norm_num
    · rw [show 3 * exampleSquare.iatom = 0 from rfl, (h1 0 (by omega)).1]
      simp [swapY]
    · rw [show 3 * exampleSquare.iatom = 0 from rfl, (h1' 0 (by omega)).1]
      simp [swapY]
    · unfold TurnAgrees
      rw [show exampleSquare.axisOrder = 4 from rfl, show 3 * exampleSquare.iatom = 0 from rfl, show 3 * 1 = 3 from rfl, ht]
      dsimp only
      rw [a00]
      rcases he0 with rfl | rfl <;> rcases he1 with rfl | rfl <;> norm_num
    · rw [show exampleSquare.axisOrder = 4 from rfl, show 3 * exampleSquare.iatom = 0 from rfl, show 3 * 1 = 3 from rfl, ht]
      rcases he0 with rfl | rfl <;> rcases he1 with rfl | rfl <;> norm_num

end Verif
