import Verif.Lemmas.Normal
import Mathlib.Analysis.Calculus.Deriv.Mul
import Mathlib.Analysis.Calculus.Deriv.Add
import Mathlib.Analysis.Calculus.Deriv.Pow

/-!
# C10–C16, C62: normal modes and normal-coordinate force constants

Specifications are in `Verif.Spec.Rotate` and `Verif.Spec.Normal`.
-/

namespace Verif

section Generic
variable {α : Type} [Arith α]

/-! ## C10: `form_sec` -/

/-- C10: the secular matrix is exactly symmetric, whatever the arithmetic. -/
theorem c10_symmetric (n : Nat) (fx : Mat α) (sqm : Vec α) (i j : Nat) :
    formSec n fx sqm i j = formSec n fx sqm j i := by
  rcases le_total i j with h | h
  · exact (formSec_lower n fx sqm j i h).symm
  · exact formSec_lower n fx sqm i j h

/-- C10: its upper triangle is the Hessian scaled by the inverse root masses of the two atoms. -/
theorem c10_entry (n : Nat) (fx : Mat α) (sqm : Vec α) (i j : Nat) (h : i ≤ j) (hj : j < n) :
    formSec n fx sqm i j = sqm (i / 3) * fx i j * sqm (j / 3) := formSec_upper n fx sqm i j h hj

/-- C10: the entries below the diagonal of the Hessian are never used. -/
theorem c10_upper_only (n : Nat) (fx fx' : Mat α) (sqm : Vec α)
    (hu : ∀ i j, i ≤ j → j < n → fx i j = fx' i j) (i j : Nat) (hi : i < n) (hj : j < n) :
    formSec n fx sqm i j = formSec n fx' sqm i j := by
  rcases le_total i j with h | h
  · rw [c10_entry n fx sqm i j h hj, c10_entry n fx' sqm i j h hj, hu i j h hj]
  · rw [c10_symmetric n fx, c10_symmetric n fx', c10_entry n fx sqm j i h hi,
      c10_entry n fx' sqm j i h hi, hu j i h hi]

/-- two different matrices with the same upper triangle -/
example : ∃ fx fx' : Mat ℝ, fx 2 1 ≠ fx' 2 1 ∧ (∀ i j, i ≤ j → j < 6 → fx i j = fx' i j) ∧
    formSec 6 fx (fun _ => 2) 4 1 = formSec 6 fx' (fun _ => 2) 4 1 := by
  refine ⟨fun i j => (i + 2 * j : ℝ), fun i j => if j < i then 0 else (i + 2 * j : ℝ), by norm_num,
    fun i j h _ => by simp [show ¬ j < i by omega], ?_⟩
  exact c10_upper_only 6 _ _ _ (fun i j h _ => by simp [show ¬ j < i by omega]) 4 1 (by omega)
    (by omega)

/-! ## C11: `symm_eigen_decomp` -/

theorem getD_lt {β : Type} (l : List β) (i : Nat) (d : β) (h : i < l.length) : l.getD i d = l[i] := by
  simp [List.getD_eq_getElem?_getD, h]

/-- C11: whatever the eigensolver returned, the result is a rearrangement of its (value, column)
pairs: there is a bijection `σ` of `0..n-1` such that returned value `i` and returned column `i` are
value and column `σ i`. -/
theorem c11_pairs_rearranged (vals : List α) (vecs : Mat α) (reverse : Bool) :
    let out := symmEigenDecomp vals vecs reverse
    let n := vals.length
    out.1.length = n ∧ ∃ σ : Nat → Nat,
      (∀ i, i < n → σ i < n) ∧ (∀ i j, i < n → j < n → σ i = σ j → i = j) ∧
      (∀ k, k < n → ∃ i, i < n ∧ σ i = k) ∧
      ∀ i, i < n → out.1[i]? = vals[σ i]? ∧ colOf out.2 i = colOf vecs (σ i) := by
  intro out n
  set ps := vals.zipIdx.mergeSort (eigenLe reverse) with hps
  have hperm : ps.Perm vals.zipIdx := List.mergeSort_perm _ _
  have hlen : ps.length = n := by rw [hperm.length_eq, List.length_zipIdx]
  have hidx : (ps.map (·.2)).Perm (List.range n) := by
    have := hperm.map (·.2)
    rwa [List.zipIdx_map_snd, ← List.range_eq_range'] at this
  have hlen2 : (ps.map (·.2)).length = n := by simpa using hlen
  have hnd : (ps.map (·.2)).Nodup := hidx.nodup_iff.mpr List.nodup_range
  have hget : ∀ i, (hi : i < n) → (ps.map (·.2)).getD i 0 = (ps[i]'(by omega)).2 := by
    intro i hi
    rw [getD_lt _ _ _ (by omega)]
    simp
  refine ⟨by simp [out, symmEigenDecomp, n], fun i => (ps.map (·.2)).getD i 0,
    ?_, ?_, ?_, ?_⟩
  · intro i hi
    simp only [getD_lt _ _ 0 (show i < (ps.map (·.2)).length by omega)]
    have := (hidx.mem_iff (a := (ps.map (·.2))[i]'(by omega))).mp (List.getElem_mem _)
    simpa using this
  · intro i j hi hj h
    simp only [getD_lt _ _ 0 (show i < (ps.map (·.2)).length by omega),
      getD_lt _ _ 0 (show j < (ps.map (·.2)).length by omega)] at h
    exact (hnd.getElem_inj_iff).mp h
  · intro k hk
    have : k ∈ ps.map (·.2) := hidx.mem_iff.mpr (by simpa using hk)
    obtain ⟨i, hi, he⟩ := List.getElem_of_mem this
    exact ⟨i, by omega, by simp only [getD_lt _ _ 0 hi, he]⟩
  · intro i hi
    refine ⟨?_, rfl⟩
    have hmem : ps[i]'(by omega) ∈ vals.zipIdx := hperm.mem_iff.mp (List.getElem_mem _)
    have := List.mem_zipIdx_iff_getElem?.mp hmem
    simp only [hget i hi]
    rw [this]
    simp [out, symmEigenDecomp, ← hps, show i < ps.length by omega]

/-- C11: any relation that holds for every pair of the eigensolver's output holds for every returned
pair (for example `A v = λ v`). -/
theorem c11_relation (vals : List α) (vecs : Mat α) (reverse : Bool) (P : α → (Nat → α) → Prop)
    (h : ∀ i v, vals[i]? = some v → P v (colOf vecs i)) (i : Nat) (v : α)
    (hv : (symmEigenDecomp vals vecs reverse).1[i]? = some v) :
    P v (colOf (symmEigenDecomp vals vecs reverse).2 i) := by
  obtain ⟨hl, σ, _, _, _, hσ⟩ := c11_pairs_rearranged vals vecs reverse
  have hi : i < vals.length := by
    rw [← hl]
    obtain ⟨h', _⟩ := List.getElem?_eq_some_iff.mp hv
    exact h'
  obtain ⟨h1, h2⟩ := hσ i hi
  rw [h2]
  exact h _ _ (h1 ▸ hv)

end Generic

section Real
open Finset

/-- C11: the returned eigenvalues are in descending order (`reverse = true`) or ascending order. -/
theorem c11_sorted (vals : List ℝ) (vecs : Mat ℝ) :
    (symmEigenDecomp vals vecs true).1.Pairwise (· ≥ ·) ∧
    (symmEigenDecomp vals vecs false).1.Pairwise (· ≤ ·) := by
  constructor
  · simp only [symmEigenDecomp]
    rw [List.pairwise_map]
    apply (List.pairwise_mergeSort (le := eigenLe true) _ _ vals.zipIdx).imp
    · intro a b h
      simpa [eigenLe, Arith.lt] using h
    · intro a b c h1 h2
      simp [eigenLe, Arith.lt] at h1 h2 ⊢
      linarith
    · intro a b
      simp [eigenLe, Arith.lt]
      exact le_total _ _
  · simp only [symmEigenDecomp]
    rw [List.pairwise_map]
    apply (List.pairwise_mergeSort (le := eigenLe false) _ _ vals.zipIdx).imp
    · intro a b h
      simpa [eigenLe, Arith.lt] using h
    · intro a b c h1 h2
      simp [eigenLe, Arith.lt] at h1 h2 ⊢
      linarith
    · intro a b
      simp [eigenLe, Arith.lt]
      exact le_total _ _

/-- C11: orthonormal eigenvector columns stay orthonormal. -/
theorem c11_orthonormal (vals : List ℝ) (vecs : Mat ℝ) (reverse : Bool)
    (h : OrthonormalCols vals.length vecs) :
    OrthonormalCols vals.length (symmEigenDecomp vals vecs reverse).2 := by
  obtain ⟨hl, σ, hlt, hinj, _, hσ⟩ := c11_pairs_rearranged vals vecs reverse
  intro i j hi hj
  have ei : ∀ r, (symmEigenDecomp vals vecs reverse).2 r i = vecs r (σ i) := fun r =>
    congrFun (hσ i hi).2 r
  have ej : ∀ r, (symmEigenDecomp vals vecs reverse).2 r j = vecs r (σ j) := fun r =>
    congrFun (hσ j hj).2 r
  simp only [ei, ej]
  rw [h _ _ (hlt i hi) (hlt j hj)]
  by_cases e : i = j
  · simp [e]
  · rw [if_neg e, if_neg (fun h => e (hinj i j hi hj h))]

/-- a two by two eigenproblem whose solver output is unsorted: the columns are exchanged with the
values -/
example : OrthonormalCols 2 (fun i j => if i = j then (1 : ℝ) else 0) ∧
    (∀ i v, ([1, 3] : List ℝ)[i]? = some v → ∀ r, r < 2 →
      (if r = 0 then (1 : ℝ) else 3) * colOf (fun i j => if i = j then (1 : ℝ) else 0) i r =
        v * colOf (fun i j => if i = j then (1 : ℝ) else 0) i r) ∧
    (symmEigenDecomp ([1, 3] : List ℝ) (fun i j => if i = j then (1 : ℝ) else 0) true).1 = [3, 1] := by
  refine ⟨?_, ?_, ?_⟩
  · intro i j hi hj
    have : i = 0 ∨ i = 1 := by omega
    have : j = 0 ∨ j = 1 := by omega
    rcases ‹i = 0 ∨ i = 1› with rfl | rfl <;> rcases ‹j = 0 ∨ j = 1› with rfl | rfl <;>
      simp [sum_range_succ]
  · intro i v h r hr
    have : i = 0 ∨ i = 1 := by
      obtain ⟨h', _⟩ := List.getElem?_eq_some_iff.mp h
      simp at h'; omega
    rcases this with rfl | rfl <;> simp at h <;> subst h <;> simp [colOf] <;>
      (have hr' : r = 0 ∨ r = 1 := by omega) <;> rcases hr' with rfl | rfl <;> norm_num
  · have hp := (c11_sorted [1, 3] (fun i j => if i = j then (1 : ℝ) else 0)).1
    obtain ⟨hl, σ, h1, h2, h3, h4⟩ := c11_pairs_rearranged [1, 3]
      (fun i j => if i = j then (1 : ℝ) else 0) true
    simp only [symmEigenDecomp, List.zipIdx_cons, List.zipIdx_nil, List.mergeSort,
      List.MergeSort.Internal.splitInTwo]
    norm_num [List.merge, eigenLe, Arith.lt]

/-! ## C12: `to_wavenumbers` -/

/-- the conversion constant, `10⁴ √N_A / (2π c)` in the units of the code -/
noncomputable def waveUnit : ℝ := 10000 * 2.453985533779692 / (2 * Real.pi * 2.99792458)

theorem wave_eq : (WAVE : ℝ) = waveUnit := by
  unfold WAVE waveUnit SQRT_AVN CL
  simp only [lit_real, pi_real]
  push_cast
  norm_num

theorem waveUnit_pos : 0 < waveUnit := by
  unfold waveUnit
  have := Real.pi_pos
  positivity

theorem toWavenumber_real (f : ℝ) : toWavenumber f =
    if f < 0 then -(waveUnit * Real.sqrt (-f)) else waveUnit * Real.sqrt f := by
  unfold toWavenumber
  rw [wave_eq]
  simp only [lit_real, sqrt_real, lt_real]
  push_cast
  norm_num

/-- C12: sign, oddness, and squaring back to the eigenvalue. -/
theorem c12_sign_odd_square (f : ℝ) :
    (toWavenumber f < 0 ↔ f < 0) ∧ (toWavenumber f = 0 ↔ f = 0) ∧ (0 < toWavenumber f ↔ 0 < f) ∧
    toWavenumber (-f) = -toWavenumber f ∧
    toWavenumber f * |toWavenumber f| = waveUnit ^ 2 * f := by
  have hw := waveUnit_pos
  rw [toWavenumber_real, toWavenumber_real]
  rcases lt_trichotomy f 0 with h | rfl | h
  · have hs : 0 < Real.sqrt (-f) := Real.sqrt_pos.mpr (by linarith)
    have hm : 0 < waveUnit * Real.sqrt (-f) := by positivity
    have hsq := Real.sq_sqrt (show 0 ≤ -f by linarith)
    rw [if_pos h, if_neg (by linarith)]
    refine ⟨⟨fun _ => h, fun _ => by linarith⟩, ⟨fun _ => by linarith, fun _ => by linarith⟩,
      ⟨fun _ => by linarith, fun _ => by linarith⟩, by ring, ?_⟩
    rw [abs_neg, abs_of_pos hm]
    linear_combination (-waveUnit ^ 2) * hsq
  · simp
  · have hs : 0 < Real.sqrt f := Real.sqrt_pos.mpr h
    have hm : 0 < waveUnit * Real.sqrt f := by positivity
    have hsq := Real.sq_sqrt h.le
    rw [if_neg (by linarith), if_pos (by linarith)]
    refine ⟨⟨fun _ => by linarith, fun _ => by linarith⟩, ⟨fun _ => by linarith, fun _ => by linarith⟩,
      ⟨fun _ => by linarith, fun _ => by linarith⟩, by rw [neg_neg], ?_⟩
    rw [abs_of_pos hm]
    linear_combination (waveUnit ^ 2) * hsq

/-- C12: strictly increasing. -/
theorem c12_strictMono : StrictMono (toWavenumber : ℝ → ℝ) := by
  intro a b hab
  have hw := waveUnit_pos
  rw [toWavenumber_real, toWavenumber_real]
  by_cases ha : a < 0 <;> by_cases hb : b < 0
  · rw [if_pos ha, if_pos hb]
    have := Real.sqrt_lt_sqrt (show 0 ≤ -b by linarith) (show -b < -a by linarith)
    nlinarith
  · rw [if_pos ha, if_neg hb]
    have h1 : 0 < Real.sqrt (-a) := Real.sqrt_pos.mpr (by linarith)
    have h2 := Real.sqrt_nonneg b
    have h3 : 0 < waveUnit * Real.sqrt (-a) := by positivity
    have h4 : 0 ≤ waveUnit * Real.sqrt b := by positivity
    linarith
  · exact absurd (hab.trans hb) ha
  · rw [if_neg ha, if_neg hb]
    have := Real.sqrt_lt_sqrt (not_lt.mp ha) hab
    nlinarith

/-- C12: frequencies inherit the descending order of the eigenvalues, one per eigenvalue. -/
theorem c12_order (l : List ℝ) (h : l.Pairwise (· ≥ ·)) :
    (toWavenumbers l).Pairwise (· ≥ ·) ∧ (toWavenumbers l).length = l.length := by
  constructor
  · unfold toWavenumbers
    rw [List.pairwise_map]
    exact h.imp fun hab => c12_strictMono.monotone hab
  · simp [toWavenumbers]

example : (toWavenumbers ([4, 1, -1] : List ℝ)).Pairwise (· ≥ ·) ∧
    toWavenumber (4 : ℝ) = 2 * waveUnit ∧ toWavenumber (-4 : ℝ) = -(2 * waveUnit) := by
  refine ⟨(c12_order _ (by norm_num)).1, ?_, ?_⟩ <;> rw [toWavenumber_real] <;> norm_num <;>
    rw [show Real.sqrt 4 = 2 by rw [show (4 : ℝ) = 2 ^ 2 by norm_num]; simp] <;> ring

/-! ## C13: `force3` -/

/-- C13: for a fully symmetric tensor the table has one entry per unordered triple and the entry read
at modes `(a, b, c)`, in any order, is the contraction of the tensor with the three mode columns,
scaled by the unit factor and `1/√(ωa ωb ωc)`. -/
theorem c13_contraction (n3n nvib : Nat) (f : T3 ℝ) (lx : Mat ℝ) (freq : Vec ℝ)
    (hs : Symm3 n3n f) (hn : nvib ≤ n3n) :
    (force3 n3n f lx nvib freq).length = nvib * (nvib + 1) * (nvib + 2) / 6 ∧
    ∀ a b c, a < nvib → b < nvib → c < nvib →
      F3qcm.get (force3 n3n f lx nvib freq) a b c =
        some (cubicUnit / Real.sqrt (freq a * freq b * freq c) *
          form3 n3n f (colOf lx a) (colOf lx b) (colOf lx c)) := by
  obtain ⟨hlen, hget⟩ := nest3_spec nvib
  constructor
  · simp only [force3, List.length_map, hlen]
    rfl
  intro a b c ha hb hc
  obtain ⟨k, j, i, hkj, hji, hp⟩ := exists_sorted3 a b c
  have hi : i < nvib := by
    have : i ∈ [a, b, c] := hp.mem_iff.mpr (by simp)
    simp at this; omega
  have hp' : [a, b, c].Perm [i, j, k] := hp.trans (List.reverse_perm [i, j, k])
  have hsym := sym3_perm (fun a b c => cubicUnit / Real.sqrt (freq a * freq b * freq c) *
          form3 n3n f (colOf lx a) (colOf lx b) (colOf lx c))
    (fun a b c => by
      rw [form3_swap12 n3n f _ _ _ hs, show freq a * freq b * freq c = freq b * freq a * freq c by ring])
    (fun a b c => by
      rw [form3_swap23 n3n f _ _ _ hs, show freq a * freq b * freq c = freq a * freq c * freq b by ring])
    hp'
  rw [hsym]
  unfold F3qcm.get
  rw [find3_perm hp, find3_sorted hkj hji]
  have := hget i j k hkj hji hi
  simp only [force3, List.getElem?_map, this, Option.map_some]
  rw [force3Val_real n3n f lx freq i j k (by omega) (by omega), form3_swap12 n3n f _ _ _ hs]

/-- C13 (the remark): without symmetry in the first two indices the code contracts them with the modes
exchanged; here the entry for modes (1,0,0) differs from the contraction in the stated order. -/
theorem c13_unsymmetric_differs : ∃ (f : T3 ℝ) (lx : Mat ℝ) (freq : Vec ℝ),
    F3qcm.get (force3 2 f lx 2 freq) 1 0 0 ≠
      some (cubicUnit / Real.sqrt (freq 1 * freq 0 * freq 0) *
          form3 2 f (colOf lx 1) (colOf lx 0) (colOf lx 0)) := by
  refine ⟨fun a b c => if a = 0 ∧ b = 1 ∧ c = 0 then 1 else 0, fun i j => if i = j then 1 else 0,
    fun _ => 1, ?_⟩
  obtain ⟨hlen, hget⟩ := nest3_spec 2
  have h := hget 1 0 0 (by omega) (by omega) (by omega)
  unfold F3qcm.get
  rw [find3_perm (show [1, 0, 0].Perm [0, 0, 1] by decide), find3_sorted (by omega) (by omega)]
  simp only [force3, List.getElem?_map, h, Option.map_some]
  rw [force3Val_real _ _ _ _ _ _ _ (by omega) (by omega)]
  have : cubicUnit ≠ 0 := by unfold cubicUnit; norm_num
  simp [form3, colOf, sum_range_succ, this]

/-- a symmetric tensor with a non-zero entry -/
example : F3qcm.get (force3 2 (fun a b c => ((a + b + c : Nat) : ℝ)) (fun i j => if i = j then 1 else 0)
    2 (fun _ => 1)) 0 1 1 = some (cubicUnit * 2) := by
  rw [(c13_contraction 2 2 _ _ _ (fun a b c _ _ _ => by push_cast; constructor <;> ring) le_rfl).2
    0 1 1 (by omega) (by omega) (by omega)]
  simp [form3, colOf, sum_range_succ]
  norm_num

/-! ## C14: `force4` -/

/-- `force4` never panics when there is a mode. -/
theorem force4_runs {α : Type} [Arith α] (n3n nvib : Nat) (f : T4 α) (lx : Mat α) (freq : Vec α) (h0 : 0 < nvib) :
    (force4 n3n f lx nvib freq).isSome := by
  unfold force4
  rw [if_neg (by omega)]
  unfold force4Fill
  rw [foldlM_put]
  · rfl
  · rintro ⟨i, j, k, l⟩ hx
    obtain ⟨h1, h2, h3, h4⟩ := mem_force4Order.mp hx
    dsimp only at h1 h2 h3 h4 ⊢
    rw [List.length_replicate, find4_top nvib h0, c02_slots_dense]
    exact ⟨_, _, _, _, h4, by omega, h2, by omega, rfl⟩

/-- The second loop of `force4` run over any list of index quadruples that covers every slot. -/
theorem force4Fill_get (n3n nvib : Nat) (f : T4 ℝ) (lx : Mat ℝ) (freq : Vec ℝ)
    (hs : Symm4 n3n f) (hn : nvib ≤ n3n) (L : List (Nat × Nat × Nat × Nat))
    (hL : L.Perm (force4Order nvib)) (t0 : List ℝ)
    (ht : t0.length = nvib * (nvib + 1) * (nvib + 2) * (nvib + 3) / 24) :
    ∃ t, force4Fill n3n (force4Half n3n f lx) lx freq L t0 = some t ∧ t.length = t0.length ∧
      ∀ a b c d, a < nvib → b < nvib → c < nvib → d < nvib →
        F4qcm.get t a b c d = some (quarticUnit / Real.sqrt (freq a * freq b * freq c * freq d) *
          form4 n3n f (colOf lx a) (colOf lx b) (colOf lx c) (colOf lx d)) := by
  set G : Nat → Nat → Nat → Nat → ℝ := fun a b c d =>
    quarticUnit / Real.sqrt (freq a * freq b * freq c * freq d) *
          form4 n3n f (colOf lx a) (colOf lx b) (colOf lx c) (colOf lx d) with hG
  have hsym : ∀ {a b c d i j k l : Nat}, [a, b, c, d].Perm [i, j, k, l] → G a b c d = G i j k l := by
    intro a b c d i j k l h
    refine sym4_perm G ?_ ?_ ?_ h
    · intro a b c d
      simp only [hG]
      rw [form4_swap12 n3n f _ _ _ _ hs,
        show freq a * freq b * freq c * freq d = freq b * freq a * freq c * freq d by ring]
    · intro a b c d
      simp only [hG]
      rw [form4_swap23 n3n f _ _ _ _ hs,
        show freq a * freq b * freq c * freq d = freq a * freq c * freq b * freq d by ring]
    · intro a b c d
      simp only [hG]
      rw [form4_swap34 n3n f _ _ _ _ hs,
        show freq a * freq b * freq c * freq d = freq a * freq b * freq d * freq c by ring]
  have hmem : ∀ x ∈ L, x.2.1 ≤ x.1 ∧ x.1 < nvib ∧ x.2.2.2 ≤ x.2.2.1 ∧ x.2.2.1 < nvib := by
    rintro ⟨i, j, k, l⟩ hx
    exact mem_force4Order.mp (hL.mem_iff.mp hx)
  unfold force4Fill
  rw [foldlM_put]
  · refine ⟨_, rfl, foldl_set_length _ _ _ _, ?_⟩
    intro a b c d ha hb hc hd
    unfold F4qcm.get
    apply foldl_set_get
    · rw [ht, c02_slots_dense]; exact ⟨a, b, c, d, ha, hb, hc, hd, rfl⟩
    · rintro ⟨i, j, k, l⟩ hx he
      obtain ⟨h1, h2, h3, h4⟩ := hmem _ hx
      dsimp only at h1 h2 h3 h4 he ⊢
      rw [force4Val_real n3n f lx freq i j k l (by omega) (by omega)]
      have hperm := (c02_same_slot_iff _ _ _ _ _ _ _ _).mp he
      rw [form4_swap12 n3n f _ _ _ _ hs]
      refine Eq.trans ?_ (hsym hperm)
      exact hsym (List.perm_append_comm (l₁ := [i, j]) (l₂ := [k, l]))
    · obtain ⟨x, y, z, w, h1, h2, h3, hp⟩ := exists_sorted4 a b c d
      have hw : w < nvib := by
        have : w ∈ [a, b, c, d] := hp.mem_iff.mpr (by simp)
        simp at this; omega
      refine ⟨(w, z, y, x), hL.mem_iff.mpr (mem_force4Order.mpr ⟨h3, hw, h1, by omega⟩), ?_⟩
      refine find4_perm (List.Perm.trans ?_ hp.symm)
      exact (List.Perm.swap _ _ _).trans (List.Perm.cons _ (List.Perm.cons _ (List.Perm.swap _ _ _)))
  · intro x hx
    obtain ⟨h1, h2, h3, h4⟩ := hmem _ hx
    rw [ht, c02_slots_dense]
    exact ⟨_, _, _, _, h4, by omega, h2, by omega, rfl⟩

/-- C14: for a fully symmetric tensor the computation succeeds and the entry read at modes `(a,b,c,d)`,
in any order, is the contraction with the four mode columns, scaled by the unit factor and
`1/√(ωa ωb ωc ωd)`. -/
theorem c14_contraction (n3n nvib : Nat) (f : T4 ℝ) (lx : Mat ℝ) (freq : Vec ℝ)
    (hs : Symm4 n3n f) (hn : nvib ≤ n3n) (h0 : 0 < nvib) :
    ∃ t, force4 n3n f lx nvib freq = some t ∧
      t.length = nvib * (nvib + 1) * (nvib + 2) * (nvib + 3) / 24 ∧
      ∀ a b c d, a < nvib → b < nvib → c < nvib → d < nvib →
        F4qcm.get t a b c d = some (quarticUnit / Real.sqrt (freq a * freq b * freq c * freq d) *
          form4 n3n f (colOf lx a) (colOf lx b) (colOf lx c) (colOf lx d)) := by
  unfold force4
  rw [if_neg (by omega)]
  obtain ⟨t, h1, h2, h3⟩ := force4Fill_get n3n nvib f lx freq hs hn (force4Order nvib)
    (List.Perm.refl _) (List.replicate (find4 (nvib - 1) (nvib - 1) (nvib - 1) (nvib - 1) + 1)
      (Arith.lit 0.0)) (by rw [List.length_replicate, find4_top nvib h0])
  exact ⟨t, h1, by rw [h2, List.length_replicate, find4_top nvib h0], h3⟩

/-- C14: the order in which the loop visits the index quadruples does not matter (several iterations
write the same slot, always with the same value). -/
theorem c14_order_irrelevant (n3n nvib : Nat) (f : T4 ℝ) (lx : Mat ℝ) (freq : Vec ℝ)
    (hs : Symm4 n3n f) (hn : nvib ≤ n3n) (L : List (Nat × Nat × Nat × Nat))
    (hL : L.Perm (force4Order nvib)) (t0 : List ℝ)
    (ht : t0.length = nvib * (nvib + 1) * (nvib + 2) * (nvib + 3) / 24) :
    force4Fill n3n (force4Half n3n f lx) lx freq L t0 =
      force4Fill n3n (force4Half n3n f lx) lx freq (force4Order nvib) t0 := by
  obtain ⟨t, h1, h2, h3⟩ := force4Fill_get n3n nvib f lx freq hs hn L hL t0 ht
  obtain ⟨t', h1', h2', h3'⟩ := force4Fill_get n3n nvib f lx freq hs hn _ (List.Perm.refl _) t0 ht
  rw [h1, h1']
  congr 1
  apply List.ext_getElem?
  intro s
  by_cases hslt : s < t0.length
  · rw [ht, c02_slots_dense] at hslt
    obtain ⟨a, b, c, d, ha, hb, hc, hd, rfl⟩ := hslt
    exact (h3 a b c d ha hb hc hd).trans (h3' a b c d ha hb hc hd).symm
  · rw [List.getElem?_eq_none (by omega), List.getElem?_eq_none (by omega)]

/-- a symmetric quartic tensor, two modes out of three coordinates: slot (0,0,1,1) is written by more
than one iteration -/
example : (∃ t, force4 3 (fun a b c d => ((a + b + c + d : Nat) : ℝ)) (fun i j => if i = j then 1 else 0)
    2 (fun _ => 1) = some t ∧ F4qcm.get t 0 1 1 0 = some (quarticUnit * 2)) ∧
    ((1, 1, 0, 0) ∈ force4Order 2 ∧ (0, 0, 1, 1) ∈ force4Order 2) := by
  constructor
  · obtain ⟨t, h1, _, h3⟩ := c14_contraction 3 2 (fun a b c d => ((a + b + c + d : Nat) : ℝ))
      (fun i j => if i = j then 1 else 0) (fun _ => 1)
      (fun a b c d _ _ _ _ => by push_cast; refine ⟨by ring, by ring, by ring⟩) (by omega) (by omega)
    refine ⟨t, h1, ?_⟩
    rw [h3 0 1 1 0 (by omega) (by omega) (by omega) (by omega)]
    simp [form4, colOf, sum_range_succ]
    norm_num
  · simp [mem_force4Order]

/-! ## C15: `make_zmat` -/

/-- C15: each Coriolis constant is the angular-momentum form of the two mode vectors. -/
theorem c15_angular (nvib natom : Nat) (lxm : Mat ℝ) (k l x : Nat) (hk : k < nvib) (hl : l < nvib)
    (hx : x < 3) :
    makeZmat nvib natom lxm k l x = angularForm natom x (colOf lxm k) (colOf lxm l) := by
  unfold makeZmat angularForm colOf
  rw [if_pos ⟨hk, hl⟩]
  have : x = 0 ∨ x = 1 ∨ x = 2 := by omega
  rcases this with rfl | rfl | rfl <;> simp [sumTo_real]

/-- C15: antisymmetric in the modes, zero on the diagonal. -/
theorem c15_antisymmetric (nvib natom : Nat) (lxm : Mat ℝ) (k l x : Nat) (hk : k < nvib)
    (hl : l < nvib) (hx : x < 3) :
    makeZmat nvib natom lxm k l x = -makeZmat nvib natom lxm l k x ∧
    makeZmat nvib natom lxm k k x = 0 := by
  rw [c15_angular _ _ _ _ _ _ hk hl hx, c15_angular _ _ _ _ _ _ hl hk hx,
    c15_angular _ _ _ _ _ _ hk hk hx]
  unfold angularForm
  constructor
  · rw [← sum_neg_distrib]
    apply sum_congr rfl; intro i _; ring
  · apply sum_eq_zero; intro i _; ring

theorem two_angularForm_le (natom x : Nat) (hx : x < 3) (u v : Nat → ℝ) :
    2 * |angularForm natom x u v| ≤
      ∑ r ∈ range (3 * natom), u r * u r + ∑ r ∈ range (3 * natom), v r * v r := by
  rw [sum_range_three_mul, sum_range_three_mul, ← sum_add_distrib]
  unfold angularForm
  calc _ ≤ 2 * ∑ i ∈ range natom, |u (3 * i + (x + 1) % 3) * v (3 * i + (x + 2) % 3) -
        u (3 * i + (x + 2) % 3) * v (3 * i + (x + 1) % 3)| := by
        have := abs_sum_le_sum_abs (fun i => u (3 * i + (x + 1) % 3) * v (3 * i + (x + 2) % 3) -
          u (3 * i + (x + 2) % 3) * v (3 * i + (x + 1) % 3)) (range natom)
        linarith
    _ ≤ _ := by
        rw [mul_sum]
        apply sum_le_sum
        intro i _
        have key : ∀ a b c d e f : ℝ, 2 * |a * d - b * c| ≤ (e * e + a * a + b * b) +
            (f * f + c * c + d * d) := by
          intro a b c d e f
          rcases abs_cases (a * d - b * c) with ⟨h, _⟩ | ⟨h, _⟩ <;> rw [h]
          · nlinarith [sq_nonneg (a - d), sq_nonneg (b + c), sq_nonneg e, sq_nonneg f]
          · nlinarith [sq_nonneg (a + d), sq_nonneg (b - c), sq_nonneg e, sq_nonneg f]
        have : x = 0 ∨ x = 1 ∨ x = 2 := by omega
        simp only [sum_range_succ, sum_range_zero, zero_add]
        rcases this with rfl | rfl | rfl <;> norm_num
        · have := key (u (3 * i + 1)) (u (3 * i + 2)) (v (3 * i + 1)) (v (3 * i + 2)) (u (3 * i))
            (v (3 * i))
          linarith
        · have := key (u (3 * i + 2)) (u (3 * i)) (v (3 * i + 2)) (v (3 * i)) (u (3 * i + 1))
            (v (3 * i + 1))
          linarith
        · have := key (u (3 * i)) (u (3 * i + 1)) (v (3 * i)) (v (3 * i + 1)) (u (3 * i + 2))
            (v (3 * i + 2))
          linarith

/-- C15: for orthonormal mode columns every Coriolis constant is at most 1 in magnitude. -/
theorem c15_bounded (nvib natom : Nat) (lxm : Mat ℝ) (ho : OrthonormalCols (3 * natom) lxm)
    (hn : nvib ≤ 3 * natom) (k l x : Nat) (hk : k < nvib) (hl : l < nvib) (hx : x < 3) :
    |makeZmat nvib natom lxm k l x| ≤ 1 := by
  rw [c15_angular _ _ _ _ _ _ hk hl hx]
  have h := two_angularForm_le natom x hx (colOf lxm k) (colOf lxm l)
  have hkk := ho k k (by omega) (by omega)
  have hll := ho l l (by omega) (by omega)
  simp only [colOf] at h hkk hll ⊢
  rw [hkk, hll] at h
  simp at h
  linarith

/-- one atom, the three Cartesian directions as modes: the bound is attained -/
example : OrthonormalCols (3 * 1) (fun i j => if i = j then (1 : ℝ) else 0) ∧
    makeZmat 3 1 (fun i j => if i = j then (1 : ℝ) else 0) 0 1 2 = 1 := by
  constructor
  · intro i j hi hj
    simp only [ite_mul, one_mul, zero_mul, Nat.reduceMul]
    have h1 : i = 0 ∨ i = 1 ∨ i = 2 := by omega
    have h2 : j = 0 ∨ j = 1 ∨ j = 2 := by omega
    rcases h1 with rfl | rfl | rfl <;> rcases h2 with rfl | rfl | rfl <;> simp [sum_range_succ]
  · rw [c15_angular _ _ _ _ _ _ (by omega) (by omega) (by omega)]
    simp [angularForm, colOf]

/-! ## C16: `make_lx` -/

/-- C16: with inverse root masses `1/√w`, an orthonormal mode matrix that diagonalises the secular
matrix gives Cartesian modes that are orthonormal with respect to the masses and diagonalise the
Hessian, with the same eigenvalues. -/
theorem c16_diagonalises (n3n : Nat) (w sqm : Vec ℝ) (fx lxm : Mat ℝ) (ev : Vec ℝ)
    (hw : ∀ a, 3 * a < n3n → 0 < w a) (hq : ∀ a, 3 * a < n3n → sqm a = 1 / Real.sqrt (w a))
    (hf : Symm2 n3n fx) (ho : OrthonormalCols n3n lxm)
    (hd : ∀ a b, a < n3n → b < n3n →
      form2 n3n (formSec n3n fx sqm) (colOf lxm a) (colOf lxm b) = if a = b then ev a else 0)
    (a b : Nat) (ha : a < n3n) (hb : b < n3n) :
    (∑ i ∈ range n3n, w (i / 3) * makeLx n3n sqm lxm i a * makeLx n3n sqm lxm i b =
      if a = b then 1 else 0) ∧
    form2 n3n fx (colOf (makeLx n3n sqm lxm) a) (colOf (makeLx n3n sqm lxm) b) =
      if a = b then ev a else 0 := by
  constructor
  · rw [← ho a b ha hb]
    apply sum_congr rfl; intro i hi
    rw [mem_range] at hi
    rw [makeLx_apply _ _ _ _ _ hi ha, makeLx_apply _ _ _ _ _ hi hb, hq _ (by omega)]
    have hp := hw (i / 3) (by omega)
    have hs := Real.sqrt_ne_zero'.mpr hp
    have hsq := Real.sq_sqrt hp.le
    field_simp
    rw [hsq]
  · rw [← hd a b ha hb]
    unfold form2 colOf
    apply sum_congr rfl; intro i hi
    apply sum_congr rfl; intro j hj
    rw [mem_range] at hi hj
    rw [makeLx_apply _ _ _ _ _ hi ha, makeLx_apply _ _ _ _ _ hj hb]
    rcases le_total i j with h | h
    · rw [c10_entry _ _ _ _ _ h hj]; ring
    · rw [c10_symmetric, c10_entry _ _ _ _ _ h hi, hf i j hi hj]; ring

/-- one atom of mass 4 with a diagonal Hessian: hypotheses satisfied with eigenvalues `k/4` -/
example : form2 3 (fun i j => if i = j then ((i + 1 : Nat) : ℝ) else 0)
    (colOf (makeLx 3 (fun _ => 1 / Real.sqrt 4) fun i j => if i = j then (1 : ℝ) else 0) 1)
    (colOf (makeLx 3 (fun _ => 1 / Real.sqrt 4) fun i j => if i = j then (1 : ℝ) else 0) 1) = 1 / 2 := by
  have h4 : Real.sqrt 4 = 2 := by rw [show (4 : ℝ) = 2 ^ 2 by norm_num]; simp
  have := (c16_diagonalises 3 (fun _ => 4) (fun _ => 1 / Real.sqrt 4)
    (fun i j => if i = j then ((i + 1 : Nat) : ℝ) else 0) (fun i j => if i = j then (1 : ℝ) else 0)
    (fun a => ((a + 1 : Nat) : ℝ) / 4) (fun _ _ => by norm_num) (fun _ _ => rfl)
    (fun a b _ _ => by by_cases h : a = b <;> simp [h, eq_comm])
    (fun i j hi hj => by
      have h1 : i = 0 ∨ i = 1 ∨ i = 2 := by omega
      have h2 : j = 0 ∨ j = 1 ∨ j = 2 := by omega
      rcases h1 with rfl | rfl | rfl <;> rcases h2 with rfl | rfl | rfl <;> simp [sum_range_succ])
    (fun i j hi hj => by
      have e : ∀ p q, p < 3 → q < 3 → formSec 3 (fun i j => if i = j then ((i + 1 : Nat) : ℝ) else 0)
          (fun _ => 1 / Real.sqrt 4) p q = if p = q then ((p + 1 : Nat) : ℝ) / 4 else 0 := by
        intro p q hp hq
        rcases le_total p q with h | h
        · rw [c10_entry _ _ _ _ _ h hq, h4]
          by_cases e : p = q <;> simp [e]
          ring
        · rw [c10_symmetric, c10_entry _ _ _ _ _ h hp, h4]
          by_cases e : q = p <;> simp [e]
          · ring
          · intro h; exact absurd h.symm e
      rw [form2_congr 3 _ _ _ _ e]
      have h1 : i = 0 ∨ i = 1 ∨ i = 2 := by omega
      have h2 : j = 0 ∨ j = 1 ∨ j = 2 := by omega
      rcases h1 with rfl | rfl | rfl <;> rcases h2 with rfl | rfl | rfl <;>
        simp [form2, colOf, sum_range_succ] <;> norm_num)
    1 1 (by omega) (by omega)).2
  rw [this]
  norm_num

/-! ## C62: the Wilson A vectors -/

theorem foldl_sub_real {β : Type} (l : List β) (f : β → ℝ) (s : ℝ) :
    l.foldl (fun s x => s - f x) s = s - (l.map f).sum := by
  induction l generalizing s with
  | nil => simp
  | cons x l ih => rw [List.foldl_cons, ih, List.map_cons, List.sum_cons]; ring

theorem foldl_sub_range (n : Nat) (f : Nat → ℝ) :
    (List.range n).foldl (fun s x => s - f x) (Arith.lit 0) = -∑ i ∈ range n, f i := by
  have h := sumTo_real n f
  unfold sumTo at h
  rw [foldl_add_real] at h
  rw [foldl_sub_real]
  simp only [lit_real] at h ⊢
  push_cast at h ⊢
  linarith

/-- the packed position of an inertia component: xx, xy, yy, xz, yz, zz -/
def packPos (p q : Nat) : Nat := max p q * (max p q + 1) / 2 + min p q

/-- C62: the A vector is the derivative of the inertia tensor along the mode: always for the diagonal
components, and for the off-diagonal ones if the mode satisfies the rotational Eckart condition
`Σ √m (r_p l_q − r_q l_p) = 0` about that axis. -/
theorem c62_derivative (nvib natom : Nat) (pos : Nat → Nat → ℝ) (lxm : Mat ℝ) (m : Vec ℝ)
    (hm : ∀ i, i < natom → 0 < m i) (k : Nat) (hk : k < nvib) (p q : Nat) (hp : p < 3) (hq : q < 3)
    (heck : p ≠ q → ∑ i ∈ range natom, Real.sqrt (m i) *
      (pos i p * lxm (3 * i + q) k - pos i q * lxm (3 * i + p) k) = 0) :
    HasDerivAt (fun t => inertia natom m (displaced m pos (colOf lxm k) t) p q)
      (wilsonA nvib natom pos lxm m k (packPos p q)) 0 := by
  have hs : ∀ i, i < natom → Real.sqrt (m i) ≠ 0 := fun i hi => Real.sqrt_ne_zero'.mpr (hm i hi)
  have hsq : ∀ i, i < natom → m i = Real.sqrt (m i) * Real.sqrt (m i) := fun i hi =>
    (Real.mul_self_sqrt (hm i hi).le).symm
  -- expand the displaced inertia tensor as a quadratic polynomial in t
  set c1 : ℝ := ∑ i ∈ range natom, Real.sqrt (m i) *
    ((if p = q then 2 * (pos i 0 * lxm (3 * i) k + pos i 1 * lxm (3 * i + 1) k +
      pos i 2 * lxm (3 * i + 2) k) else 0) -
      (pos i p * lxm (3 * i + q) k + pos i q * lxm (3 * i + p) k)) with hc1
  set c2 : ℝ := ∑ i ∈ range natom, ((if p = q then lxm (3 * i) k ^ 2 + lxm (3 * i + 1) k ^ 2 +
      lxm (3 * i + 2) k ^ 2 else 0) - lxm (3 * i + p) k * lxm (3 * i + q) k) with hc2
  have hexp : ∀ t, inertia natom m (displaced m pos (colOf lxm k) t) p q =
      inertia natom m pos p q + t * c1 + t ^ 2 * c2 := by
    intro t
    unfold inertia
    rw [hc1, hc2, mul_sum, mul_sum, ← sum_add_distrib, ← sum_add_distrib]
    apply sum_congr rfl; intro i hi
    rw [mem_range] at hi
    simp only [displaced, colOf, add_zero]
    have h1 := hs i hi
    rw [hsq i hi]
    have h2 : Real.sqrt (Real.sqrt (m i) * Real.sqrt (m i)) = Real.sqrt (m i) :=
      Real.sqrt_mul_self (Real.sqrt_nonneg _)
    rw [h2]
    split
    · field_simp; ring
    · field_simp; ring
  have hder : HasDerivAt (fun t : ℝ => inertia natom m pos p q + t * c1 + t ^ 2 * c2) c1 0 := by
    have h1 : HasDerivAt (fun t : ℝ => t * c1) c1 0 := by
      simpa using (hasDerivAt_id (0 : ℝ)).mul_const c1
    have h2 : HasDerivAt (fun t : ℝ => t ^ 2 * c2) 0 0 := by
      simpa using (hasDerivAt_pow 2 (0 : ℝ)).mul_const c2
    have h3 := (h1.const_add (inertia natom m pos p q)).add h2
    rw [add_zero] at h3
    exact h3
  have hval : wilsonA nvib natom pos lxm m k (packPos p q) = c1 := by
    have h3 : p = 0 ∨ p = 1 ∨ p = 2 := by omega
    have h4 : q = 0 ∨ q = 1 ∨ q = 2 := by omega
    have hw0 : wilsonA nvib natom pos lxm m k 0 = 2 * ∑ i ∈ range natom, Real.sqrt (m i) *
        (pos i 1 * lxm (3 * i + 1) k + pos i 2 * lxm (3 * i + 2) k) := by
      simp [wilsonA, hk, sumTo_real, lit_real, sqrt_real]; norm_num
    have hw2 : wilsonA nvib natom pos lxm m k 2 = 2 * ∑ i ∈ range natom, Real.sqrt (m i) *
        (pos i 0 * lxm (3 * i) k + pos i 2 * lxm (3 * i + 2) k) := by
      simp [wilsonA, hk, sumTo_real, lit_real, sqrt_real]; norm_num
    have hw5 : wilsonA nvib natom pos lxm m k 5 = 2 * ∑ i ∈ range natom, Real.sqrt (m i) *
        (pos i 0 * lxm (3 * i) k + pos i 1 * lxm (3 * i + 1) k) := by
      simp [wilsonA, hk, sumTo_real, lit_real, sqrt_real]; norm_num
    have hw1 : wilsonA nvib natom pos lxm m k 1 = 2 * -∑ i ∈ range natom, Real.sqrt (m i) *
        pos i 0 * lxm (3 * i + 1) k := by
      rw [← foldl_sub_range]
      simp [wilsonA, hk, lit_real, sqrt_real]; norm_num
    have hw3 : wilsonA nvib natom pos lxm m k 3 = 2 * -∑ i ∈ range natom, Real.sqrt (m i) *
        pos i 0 * lxm (3 * i + 2) k := by
      rw [← foldl_sub_range]
      simp [wilsonA, hk, lit_real, sqrt_real]; norm_num
    have hw4 : wilsonA nvib natom pos lxm m k 4 = 2 * -∑ i ∈ range natom, Real.sqrt (m i) *
        pos i 1 * lxm (3 * i + 2) k := by
      rw [← foldl_sub_range]
      simp [wilsonA, hk, lit_real, sqrt_real]; norm_num
    rcases h3 with rfl | rfl | rfl <;> rcases h4 with rfl | rfl | rfl
    · rw [show packPos 0 0 = 0 by rfl, hw0, hc1, mul_sum]
      apply sum_congr rfl; intro i _; simp only [if_true]; ring_nf
    · have he := heck (by omega)
      rw [show packPos 0 1 = 1 by rfl, hw1, ← sub_zero c1, ← he, hc1,
        ← sum_sub_distrib, ← sum_neg_distrib, mul_sum]
      apply sum_congr rfl; intro i _; simp; ring
    · have he := heck (by omega)
      rw [show packPos 0 2 = 3 by rfl, hw3, ← sub_zero c1, ← he, hc1,
        ← sum_sub_distrib, ← sum_neg_distrib, mul_sum]
      apply sum_congr rfl; intro i _; simp; ring
    · have he := heck (by omega)
      rw [show packPos 1 0 = 1 by rfl, hw1, ← add_zero c1, ← he, hc1,
        ← sum_add_distrib, ← sum_neg_distrib, mul_sum]
      apply sum_congr rfl; intro i _; simp; ring
    · rw [show packPos 1 1 = 2 by rfl, hw2, hc1, mul_sum]
      apply sum_congr rfl; intro i _; simp only [if_true]; ring_nf
    · have he := heck (by omega)
      rw [show packPos 1 2 = 4 by rfl, hw4, ← sub_zero c1, ← he, hc1,
        ← sum_sub_distrib, ← sum_neg_distrib, mul_sum]
      apply sum_congr rfl; intro i _; simp; ring
    · have he := heck (by omega)
      rw [show packPos 2 0 = 3 by rfl, hw3, ← add_zero c1, ← he, hc1,
        ← sum_add_distrib, ← sum_neg_distrib, mul_sum]
      apply sum_congr rfl; intro i _; simp; ring
    · have he := heck (by omega)
      rw [show packPos 2 1 = 4 by rfl, hw4, ← add_zero c1, ← he, hc1,
        ← sum_add_distrib, ← sum_neg_distrib, mul_sum]
      apply sum_congr rfl; intro i _; simp; ring
    · rw [show packPos 2 2 = 5 by rfl, hw5, hc1, mul_sum]
      apply sum_congr rfl; intro i _; simp only [if_true]; ring_nf
  rw [hval]
  exact hder.congr_of_eventuallyEq (Filter.Eventually.of_forall hexp)

/-- C62: the trace relations. -/
theorem c62_trace (nvib natom : Nat) (pos : Nat → Nat → ℝ) (lxm : Mat ℝ) (m : Vec ℝ) (k : Nat)
    (hk : k < nvib) :
    let A := fun p => wilsonA nvib natom pos lxm m k (packPos p p)
    A 0 + A 1 - A 2 = 4 * ∑ i ∈ range natom, Real.sqrt (m i) * pos i 2 * lxm (3 * i + 2) k ∧
    A 1 + A 2 - A 0 = 4 * ∑ i ∈ range natom, Real.sqrt (m i) * pos i 0 * lxm (3 * i) k ∧
    A 2 + A 0 - A 1 = 4 * ∑ i ∈ range natom, Real.sqrt (m i) * pos i 1 * lxm (3 * i + 1) k := by
  have e : packPos 0 0 = 0 ∧ packPos 1 1 = 2 ∧ packPos 2 2 = 5 := ⟨rfl, rfl, rfl⟩
  simp only [e.1, e.2.1, e.2.2]
  simp only [wilsonA, hk, if_true, sumTo_real, lit_real, sqrt_real]
  norm_num
  refine ⟨?_, ?_, ?_⟩ <;> simp only [mul_sum] <;> rw [← sum_add_distrib, ← sum_sub_distrib] <;>
    apply sum_congr rfl <;> intro i _ <;> ring

/-- a diatomic along x displaced along its stretch (which satisfies the Eckart condition): the
moment about y changes at a non-zero rate, and the off-diagonal hypotheses are met -/
example :
    let pos : Nat → Nat → ℝ := fun i p => if p = 0 then (if i = 0 then 1 else -1) else 0
    let lxm : Mat ℝ := fun r _ => if r = 0 then 1 else if r = 3 then -1 else 0
    (∑ i ∈ range 2, Real.sqrt 1 * (pos i 0 * lxm (3 * i + 1) 0 - pos i 1 * lxm (3 * i + 0) 0) = 0) ∧
    HasDerivAt (fun t => inertia 2 (fun _ => 1) (displaced (fun _ => 1) pos (colOf lxm 0) t) 1 1) 4 0 := by
  intro pos lxm
  constructor
  · simp [sum_range_succ, pos, lxm]
  · have h := c62_derivative 1 2 pos lxm (fun _ => 1) (fun _ _ => one_pos) 0 (by omega) 1 1 (by omega)
      (by omega) (fun h => absurd rfl h)
    convert h using 1
    simp [wilsonA, packPos, sumTo_real, lit_real, sqrt_real, sum_range_succ, pos, lxm]
    norm_num

end Real

end Verif
