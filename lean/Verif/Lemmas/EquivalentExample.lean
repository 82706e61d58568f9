import Verif.Lemmas.EquivalentModes
import Verif.Lemmas.ThreefoldExample
import Verif.Props.SymSolver

/-!
# Threefold symmetry of the molecule: an example

Helpers for C106.
-/

namespace Verif

open Finset

/-- Three vibrations, of which the first two are degenerate. -/
noncomputable def coreLevels (i : Nat) : ℝ := if i ≤ 1 then 900 else if i = 2 then 800 else 0

theorem coreLevels_nonneg (i : Nat) : 0 ≤ coreLevels i := by
  unfold coreLevels
  split_ifs <;> norm_num

theorem coreLevels_anti {i j : Nat} (h : i < j) : coreLevels j ≤ coreLevels i := by
  unfold coreLevels
  split_ifs <;> first | omega | norm_num

theorem coreLevels_gap {i j : Nat} (h : i < j) (h3 : i < 3) (h2 : 2 ≤ j) : 50 ≤ coreLevels i - coreLevels j := by
  unfold coreLevels
  split_ifs <;> first | omega | norm_num

theorem coreLevels_inj {i j : Nat} (hj : j < 3) (h : coreLevels i = coreLevels j) : i = j ∨ i ≤ 1 ∧ j ≤ 1 := by
  unfold coreLevels at h
  split_ifs at h <;> first | omega | norm_num at h

theorem coreLevels_close {i j : Nat} (hij : i < j) (h3 : j < 3) (h : |coreLevels i - coreLevels j| < 50) : i = 0 ∧ j = 1 := by
  by_cases h2 : 2 ≤ j
  · have := coreLevels_gap hij (by omega) h2
    have := le_abs_self (coreLevels i - coreLevels j)
    linarith
  · omega

theorem coreLevels_paired {n : Nat} (h3 : n ≤ 3) (t : ℝ) (ht : t ≤ 50) : Paired n t coreLevels := by
  have key : ∀ i j, i < 3 → j < 3 → i ≠ j → |coreLevels i - coreLevels j| < t → i ≤ 1 ∧ j ≤ 1 := by
    intro i j hi hj hij h
    by_contra hc
    rcases Nat.lt_or_gt_of_ne hij with hl | hl
    · have := coreLevels_gap hl hi (by omega)
      have := le_abs_self (coreLevels i - coreLevels j)
      linarith
    · have := coreLevels_gap hl hj (by omega)
      have := neg_le_abs (coreLevels i - coreLevels j)
      linarith
  intro i j k _ _ _ hij hik hjk h
  by_contra hc
  have h1 := key i j (by omega) (by omega) hij h
  have h2 := key j k (by omega) (by omega) hjk (not_le.1 hc)
  omega

section Core
variable {n : Nat} {p : Nat → Nat} (hp : ∀ i < n, p i < n) (hpp : ∀ i, p (p i) = i) {c t : ℝ}
  (hc : c ^ 2 + t ^ 2 = 1)
include hp hpp hc

omit hc in
theorem core_support {i : Nat} (hi : i < n) (hi3 : i < 3) {u : Nat → ℝ}
    (h : ∀ v : Nat → ℝ, waveUnit ^ 2 * FACT2 * form2 n (diagHessian fun r => coreLevels (p r)) v u =
      coreLevels i * |coreLevels i| * massForm n (fun _ => 1) v u) :
    ∀ r < n, u r ≠ 0 → ∃ k < n, r = p k ∧ (k = i ∨ k ≤ 1 ∧ i ≤ 1) := by
  intro r hr hne
  have := diagonal_motion h r hr hne
  refine ⟨p r, hp r hr, (hpp r).symm, ?_⟩
  apply coreLevels_inj hi3
  have pos : 0 < coreLevels i := by
    unfold coreLevels
    split_ifs <;> first | omega | norm_num
  have w0 := waveUnit_pos
  have f0 := fact2_real_pos
  have nn := coreLevels_nonneg (p r)
  rw [mul_div_cancel₀ _ (by positivity), abs_of_pos pos, ← pow_two] at this
  exact (pow_left_inj₀ nn pos.le (by norm_num)).1 this

omit hc in
theorem core_twofold {nvib : Nat} (hv0 : 2 ≤ nvib) (hv3 : nvib ≤ 3) (hv : nvib ≤ n) {w : Nat → ℝ} {d : Nat → Nat → ℝ}
    (hw : ∀ i < nvib, w i = coreLevels i)
    (hd : ∀ i < nvib, ∃ e : ℝ, (e = 1 ∨ e = -1) ∧ ∀ r < n, d i r = if r = p i then e else 0) :
    TwoFold nvib n (waveUnit ^ 2 * FACT2) (diagHessian fun r => coreLevels (p r)) (fun _ => 1) w d := by
  have inj : ∀ i j, p i = p j → i = j := fun i j h => by rw [← hpp i, h, hpp]
  -- a displacement supported on the coordinates of two modes is a combination of them
  have comb : ∀ i j, i < nvib → j < nvib → i ≠ j → ∀ u : Nat → ℝ, (∀ r < n, r ≠ p i → r ≠ p j → u r = 0) →
      ∃ a b, ∀ r < n, u r = a * d i r + b * d j r := by
    intro i j hi hj hij u hu
    obtain ⟨e, he, h1⟩ := hd i hi
    obtain ⟨f, hf, h2⟩ := hd j hj
    refine ⟨u (p i) * e, u (p j) * f, fun r hr => ?_⟩
    rw [h1 r hr, h2 r hr]
    have e2 : e * e = 1 := by rcases he with rfl | rfl <;> norm_num
    have f2 : f * f = 1 := by rcases hf with rfl | rfl <;> norm_num
    have pij : p i ≠ p j := fun h => hij (inj _ _ h)
    by_cases r1 : r = p i
    · subst r1
      rw [if_pos rfl, if_neg pij]
      linear_combination (-u (p i)) * e2
    by_cases r2 : r = p j
    · subst r2
      rw [if_neg r1, if_pos rfl]
      linear_combination (-u (p j)) * f2
    · rw [if_neg r1, if_neg r2, hu r hr r1 r2]
      ring
  intro i hi
  rw [hw i hi]
  by_cases h1 : i ≤ 1
  · refine ⟨1 - i, by omega, ?_, fun u hu => ?_⟩
    · rw [hw _ (by omega)]
      unfold coreLevels
      rw [if_pos (by omega), if_pos h1]
    · refine comb i (1 - i) hi (by omega) (by omega) u fun r hr hne hne' => ?_
      by_contra h
      obtain ⟨k, hk, e, h'⟩ := core_support hp hpp (by omega) (by omega) hu r hr h
      have : k = i ∨ k = 1 - i := by omega
      rcases this with rfl | rfl
      · exact hne e
      · exact hne' e
  · refine ⟨i, hi, hw i hi, fun u hu => ?_⟩
    obtain ⟨a, b, hab⟩ := comb i 0 hi (by omega) (by omega) u fun r hr hne _ => by
      by_contra h
      obtain ⟨k, hk, e, h'⟩ := core_support hp hpp (by omega) (by omega) hu r hr h
      exact hne (by rw [e]; congr 1; omega)
    have hb : b = 0 := by
      obtain ⟨f, hf, h2⟩ := hd 0 (by omega)
      obtain ⟨e, -, h3⟩ := hd i hi
      by_contra hb
      have u0 : u (p 0) ≠ 0 := by
        rw [hab _ (hp 0 (by omega)), h2 _ (hp 0 (by omega)), if_pos rfl, h3 _ (hp 0 (by omega)),
          if_neg (fun h => by have := inj _ _ h; omega), mul_zero, zero_add]
        refine mul_ne_zero hb ?_
        rcases hf with rfl | rfl <;> norm_num
      obtain ⟨k, hk, e, h'⟩ := core_support hp hpp (by omega) (by omega) hu (p 0) (hp 0 (by omega)) u0
      have := inj _ _ e
      omega
    exact ⟨a, 0, fun r hr => by rw [hab r hr, hb]; ring⟩

theorem core_facts (h2 : 2 ≤ n) (s : SpectroIn ℝ) (hax : s.axes = idAxes) (hm : s.weights = fun _ => 1)
    (hn : s.n3n = n) (hna : n = 3 * s.natom) (hr : axialTop s.rotor) (hv0 : 2 ≤ s.nvib) (hv3 : s.nvib ≤ 3) (hv : s.nvib ≤ n)
    (hi2 : s.i2vib = s.nvib * (s.nvib + 1) / 2) (hb : s.linear = true ∨ s.buddy.isSome) (hat : s.iatom = 0) (hp0 : p 0 = 0)
    (hct : 1 / 100000 ≤ |c|) (f3x : T3 ℝ) (f4x : T4 ℝ) :
    ∃ out q, run s (turnedOracles n p c t) (.quartic (diagHessian fun r => coreLevels (p r)) f3x f4x) = some out ∧
      run s (turnedOracles n p c t) (.harmonic (diagHessian fun r => coreLevels (p r))) = some q ∧
      out.lxm = q.lxm ∧ (∀ i j, Mode.i2 i j ∈ out.resonances.modes ↔ i = 0 ∧ j = 1) ∧
      (∀ i < s.nvib, entryOf q.harms i = coreLevels i) ∧
      (s.linear = true → columnEntry q.lxm 0 0 * columnEntry q.lxm 1 1 ≤ 0) ∧
      ∀ i < s.nvib, ∃ e : ℝ, (e = 1 ∨ e = -1) ∧
        ∀ r < n, columnEntry q.lxm i r = (if r = p i then e else 0) ∧ columnEntry q.lx i r = if r = p i then e else 0 := by
  subst hn
  obtain ⟨hs, -⟩ := axial_sym hr
  have inj : ∀ i j, p i = p j → i = j := fun i j h => by rw [← hpp i, h, hpp]
  obtain ⟨raw1, raw2⟩ := turned_raw (c := c) (t := t) hp hpp h2 s (fun r => coreLevels (p r)) hax hm rfl hna
    (fun r => coreLevels_nonneg (p r)) (fun i j hij hj => by
      simp only [hpp]
      exact coreLevels_anti hij)
    (by simp only [hpp]; norm_num [coreLevels])
  have lev : ∀ i < s.nvib, vecOf (rawModes s (turnedOracles s.n3n p c t) (diagHessian fun r => coreLevels (p r))).1 i =
      coreLevels i := by
    intro i hi
    rw [raw1, vecOf, List.getD_eq_getElem?_getD, List.getElem?_map, List.getElem?_range (by omega)]
    exact congrArg coreLevels (hpp i)
  have paired : ∀ T : ℝ, T ≤ 50 → Paired s.nvib T
      (vecOf (rawModes s (turnedOracles s.n3n p c t) (diagHessian fun r => coreLevels (p r))).1) := by
    intro T hT i j k hi hj hk
    rw [lev i hi, lev j hj, lev k hk]
    exact coreLevels_paired hv3 T hT i j k hi hj hk
  have T50 : alignTol s.linear ≤ (50 : ℝ) := by
    rw [alignTol_real]
    split <;> norm_num
  have Tpos : (0 : ℝ) < alignTol s.linear := by
    rw [alignTol_real]
    split <;> norm_num
  have v00 : turnedVecs p c t 0 0 = c := by
    have : ¬ (0 = p 1) := fun h => by
      rw [← hp0] at h
      have := inj _ _ h
      omega
    simp [turnedVecs, hp0, this]
  have hdone := (c99_completes_partial s (turnedOracles s.n3n p c t) (diagHessian fun r => coreLevels (p r)) f3x f4x hr
    (by omega) hv hi2 (turnedOracles_length hp hpp hc) (fun a v b => (turnedOracles_eigen2 _ p c t a v b).1) le_rfl
    (by split <;> exact paired _ (by norm_num))).2 (by
      intro i j hij hj hc'
      rw [lev i (by omega), lev j hj] at hc'
      obtain ⟨rfl, rfl⟩ := coreLevels_close hij (by omega) (lt_trans hc' (by split <;> norm_num))
      refine ⟨.inl ⟨0, by simp [hat], 0, by simp, ?_⟩, hb⟩
      rw [raw2 0 0 (by omega), v00]
      exact hct)
  obtain ⟨out, hout⟩ := Option.isSome_iff_exists.1 hdone
  obtain ⟨m, F4, hmm, -, -⟩ := run_quartic hout
  obtain ⟨ef, -⟩ := runModes_sym hs hmm
  have hev := turnedOracles_exact hp hpp hc h2
  have levm : ∀ i < s.nvib, vecOf m.freq i = coreLevels i := fun i hi => by rw [ef, lev i hi]
  have sep : ∀ a b, a < s.nvib → b < s.nvib → |vecOf m.freq a - vecOf m.freq b| < alignTol s.linear →
      vecOf m.freq a = vecOf m.freq b := by
    intro a b ha hb h
    rw [levm a ha, levm b hb] at h ⊢
    have key : ∀ {a b : Nat}, a < b → b < 3 → |coreLevels a - coreLevels b| < alignTol s.linear → coreLevels a = coreLevels b := by
      intro a b hab hb h
      obtain ⟨rfl, rfl⟩ := coreLevels_close hab hb (lt_of_lt_of_le h T50)
      norm_num [coreLevels]
    rcases Nat.lt_trichotomy a b with e | e | e
    · exact key e (by omega) h
    · rw [e]
    · rw [abs_sub_comm] at h
      exact (key e (by omega) h).symm
  obtain ⟨len, -, lxe, -⟩ := sym_modes_exact hs hna hv hev hmm sep
  obtain ⟨tv, hmd⟩ := quartic_modes hmm hout
  have tv' : ∃ v', toVec s.n3n s.n3n m.lx = some v' := by
    rw [toVec_square s.n3n (by omega)]
    exact ⟨_, rfl⟩
  obtain ⟨v', tv'⟩ := tv'
  have hfirst : ∃ h, firstFreqs m.freq s.nvib = some h := by
    unfold firstFreqs
    rw [if_neg (by omega)]
    exact ⟨_, rfl⟩
  obtain ⟨hh, hfirst⟩ := hfirst
  have hq : ∃ q, run s (turnedOracles s.n3n p c t) (.harmonic (diagHessian fun r => coreLevels (p r))) = some q := by
    unfold run
    simp only [Derivative.fc2, hmm, hfirst, tv, tv', Option.bind_eq_bind, Option.bind_some]
    exact ⟨_, rfl⟩
  obtain ⟨q, hq⟩ := hq
  obtain ⟨m₂, hm₂, q1, q2, -, qf⟩ := harmonic_facts hq
  obtain rfl := Option.some.inj (hmm.symm.trans hm₂)
  have harms : ∀ i < s.nvib, entryOf q.harms i = coreLevels i := fun i hi => by rw [← qf i hi, levm i hi]
  have lxl : ∀ i < s.nvib, ∀ r < s.n3n, columnEntry q.lx i r = columnEntry q.lxm i r := by
    intro i hi r hr
    rw [columnEntry_toVec q1 i r (by omega) hr, columnEntry_toVec q2 i r (by omega) hr, lxe r i hr (by omega), hm]
    simp
  obtain ⟨N1, N2⟩ := c100_normal_modes s _ _ q hs hna hv (fun a _ => by rw [hm]; norm_num)
    (by rw [hax]; exact idAxes_orthogonal) (diagHessian_symm _ _) hev hq (by
      intro a b ha hb h
      have := sep a b ha hb (by rw [qf a ha, qf b hb, alignTol_real]; convert h using 2; norm_num)
      rwa [qf a ha, qf b hb] at this)
  rw [hax, hm] at N1 N2
  simp only [applyAxes_id] at N1 N2
  -- where the columns vanish
  have supp : ∀ i < s.nvib, ∀ r < s.n3n, columnEntry q.lx i r ≠ 0 → ∃ k < s.n3n, r = p k ∧ (k = i ∨ k ≤ 1 ∧ i ≤ 1) := by
    intro i hi r hr hne
    have N := N1 i hi
    rw [harms i hi] at N
    exact core_support hp hpp (by omega) (by omega) N r hr hne
  have one : ∀ (f : Nat → ℝ) (k : Nat), k < s.n3n → (∀ r < s.n3n, r ≠ p k → f r = 0) → ∑ r ∈ range s.n3n, f r = f (p k) := by
    intro f k hk hz
    rw [sum_eq_single (p k) (fun r hr hne => hz r (mem_range.1 hr) hne) (fun h => absurd (mem_range.2 (hp k hk)) h)]
  have pair := sym_modes_pair hs hmm (by rw [ef]; exact paired _ T50) 0 1 (by omega) (by omega) (by
    rw [levm 0 (by omega), levm 1 (by omega)]
    norm_num [coreLevels, Tpos])
  obtain ⟨l, l', hl1, el, er⟩ := pair
  have c10 : columnEntry q.lx 1 0 = 0 := by
    rw [lxl 1 (by omega) 0 (by omega), columnEntry_toVec q1 1 0 (by omega) (by omega), (el 0).2]
    have := c51_first_x_partial _ 0 1 (by omega) l l' hl1 (by simp only [hat]; omega) (by
      simp only [hat, mul_zero]
      rw [(er 0).1, raw2 0 0 (by omega), v00]
      exact hct)
    simpa only [hat, mul_zero] using this
  have unit : ∀ i < s.nvib, (∀ r < s.n3n, r ≠ p i → columnEntry q.lx i r = 0) → ∃ e : ℝ, (e = 1 ∨ e = -1) ∧
      ∀ r < s.n3n, columnEntry q.lxm i r = (if r = p i then e else 0) ∧ columnEntry q.lx i r = if r = p i then e else 0 := by
    intro i hi hz
    have h1 := N2 i hi i hi
    rw [if_pos rfl, massForm, one _ i (by omega) (fun r hr hne => by rw [hz r hr hne, mul_zero]), one_mul] at h1
    refine ⟨_, mul_self_eq_one_iff.1 h1, fun r hr => ?_⟩
    rw [← lxl i hi r hr, and_self]
    split_ifs with e
    · rw [e]
    · exact hz r hr e
  have col1 := unit 1 (by omega) (fun r hr hne => by
    by_contra h
    obtain ⟨k, hk, e, h'⟩ := supp 1 (by omega) r hr h
    have : k ≠ 1 := fun h => hne (by rw [e, h])
    obtain rfl : k = 0 := by omega
    rw [e, hp0] at h
    exact h c10)
  have col0 := unit 0 (by omega) (fun r hr hne => by
    by_contra h
    obtain ⟨k, hk, e, h'⟩ := supp 0 (by omega) r hr h
    have : k ≠ 0 := fun h => hne (by rw [e, h])
    obtain rfl : k = 1 := by omega
    obtain ⟨e1, he1, h1⟩ := col1
    have hz := N2 0 (by omega) 1 (by omega)
    rw [if_neg (by omega), massForm, one _ 1 (by omega) (fun r hr hne => by rw [(h1 r hr).2, if_neg hne, mul_zero]),
      (h1 (p 1) (hp 1 (by omega))).2, if_pos rfl, ← e] at hz
    rcases he1 with rfl | rfl
    · exact h (by linarith)
    · exact h (by linarith))
  refine ⟨out, q, hout, hq, ?_, ?_, harms, ?_, fun i hi => ?_⟩
  · exact Option.some.inj (tv.symm.trans q1)
  · intro i j
    rw [hmd, mem_degModes_sym hs]
    constructor
    · rintro (⟨w, -, e⟩ | ⟨w, hw, e⟩ | ⟨w, -, -, -, e⟩)
      · cases e
      · injection e with e1 e2
        have : (i, j) = w := by rw [e1, e2]
        rw [← this, degDoubles_iff] at hw
        obtain ⟨⟨h1, h2⟩, h3, -⟩ := hw
        rw [levm i (by omega), levm j h2] at h3
        exact coreLevels_close h1 (by omega) (lt_trans h3 (by norm_num))
      · cases e
    · rintro ⟨rfl, rfl⟩
      refine .inr (.inl ⟨(0, 1), ?_, rfl⟩)
      have hnt : degTriples s.nvib (vecOf m.freq) = [] := by
        rw [List.eq_nil_iff_forall_not_mem]
        rintro ⟨a, b, d⟩ h
        rw [degTriples_iff] at h
        obtain ⟨⟨h1, h2, h3⟩, h4, h5, -⟩ := h
        rw [levm a (by omega), levm b (by omega)] at h4
        rw [levm a (by omega), levm d (by omega)] at h5
        have := coreLevels_close h1 (by omega) (lt_trans h4 (by norm_num))
        have := coreLevels_close (show a < d by omega) (by omega) (lt_trans h5 (by norm_num))
        omega
      rw [degDoubles_iff, hnt, levm 0 (by omega), levm 1 (by omega)]
      refine ⟨⟨by omega, by omega⟩, ?_⟩
      norm_num [coreLevels, inTriples]
  · intro hl
    have := c51_linear_sign_partial _ 0 1 (by omega) l l' hl hl1 (by simp only [hat]; omega)
    simp only [hat, mul_zero, zero_add] at this
    rwa [columnEntry_toVec q1 0 0 (by omega) (by omega), columnEntry_toVec q1 1 1 (by omega) (by omega), (el 0).1, (el 1).2]
  · by_cases h0 : i = 0
    · rw [h0]
      exact col0
    by_cases h1 : i = 1
    · rw [h1]
      exact col1
    refine unit i hi fun r hr hne => ?_
    by_contra h
    obtain ⟨k, hk, e, h'⟩ := supp i hi r hr h
    exact hne (by rw [e]; congr 1; omega)

end Core

/-! ### A molecule of four atoms -/

theorem form2_core (a b : ℝ) (u v : Nat → ℝ) :
    form2 12 (diagHessian fun i => if i ≤ 1 then a else if i = 2 then b else 0) u v =
      a ^ 2 / (waveUnit ^ 2 * (FACT2 : ℝ)) * (u 0 * v 0 + u 1 * v 1) + b ^ 2 / (waveUnit ^ 2 * (FACT2 : ℝ)) * u 2 * v 2 := by
  simp [form2, sum_range_succ, diagHessian]
  ring

theorem topCubic_zero (a b c : ℝ) (i j k : Nat) (h : 3 ≤ i ∨ 3 ≤ j ∨ 3 ≤ k) : topCubic a b c i j k = 0 := by
  unfold topCubic
  rw [if_neg (by omega), if_neg (by omega), if_neg (by omega), if_neg (by omega)]

theorem topQuartic_zero (d f : ℝ) (i j k l : Nat) (h : 3 ≤ i ∨ 3 ≤ j ∨ 3 ≤ k ∨ 3 ≤ l) : topQuartic d f i j k l = 0 := by
  unfold topQuartic
  rw [if_neg (by omega), if_neg (by omega), if_neg (by omega)]

theorem topCubic_form12 (a b c : ℝ) (u v t : Nat → ℝ) : form3 12 (topCubic a b c) u v t = form3 3 (topCubic a b c) u v t := by
  have z := topCubic_zero a b c
  have sub : range 3 ⊆ range 12 := range_subset_range.2 (by norm_num)
  have out : ∀ i, i ∉ range 3 → 3 ≤ i := fun i hi => by simpa using hi
  unfold form3
  rw [← sum_subset sub fun i _ hi => sum_eq_zero fun j _ => sum_eq_zero fun k _ => by rw [z i j k (.inl (out i hi))]; ring]
  refine sum_congr rfl fun i _ => ?_
  rw [← sum_subset sub fun j _ hj => sum_eq_zero fun k _ => by rw [z i j k (.inr (.inl (out j hj)))]; ring]
  refine sum_congr rfl fun j _ => ?_
  rw [← sum_subset sub fun k _ hk => by rw [z i j k (.inr (.inr (out k hk)))]; ring]

theorem topQuartic_form12 (d f : ℝ) (u v t r : Nat → ℝ) : form4 12 (topQuartic d f) u v t r = form4 3 (topQuartic d f) u v t r := by
  have z := topQuartic_zero d f
  have sub : range 3 ⊆ range 12 := range_subset_range.2 (by norm_num)
  have out : ∀ i, i ∉ range 3 → 3 ≤ i := fun i hi => by simpa using hi
  unfold form4
  rw [← sum_subset sub fun i _ hi => sum_eq_zero fun j _ => sum_eq_zero fun k _ => sum_eq_zero fun l _ => by
    rw [z i j k l (.inl (out i hi))]; ring]
  refine sum_congr rfl fun i _ => ?_
  rw [← sum_subset sub fun j _ hj => sum_eq_zero fun k _ => sum_eq_zero fun l _ => by
    rw [z i j k l (.inr (.inl (out j hj)))]; ring]
  refine sum_congr rfl fun j _ => ?_
  rw [← sum_subset sub fun k _ hk => sum_eq_zero fun l _ => by rw [z i j k l (.inr (.inr (.inl (out k hk))))]; ring]
  refine sum_congr rfl fun k _ => ?_
  rw [← sum_subset sub fun l _ hl => by rw [z i j k l (.inr (.inr (.inr (out l hl))))]; ring]

theorem topCubic_symm12 (a b c : ℝ) : Symm3 12 (topCubic a b c) := by
  intro i j k _ _ _
  by_cases h : i < 3 ∧ j < 3 ∧ k < 3
  · exact topCubic_symm a b c i j k h.1 h.2.1 h.2.2
  · simp only [topCubic_zero a b c i j k (by omega), topCubic_zero a b c j i k (by omega), topCubic_zero a b c i k j (by omega),
      and_self]

theorem topQuartic_symm12 (d f : ℝ) : Symm4 12 (topQuartic d f) := by
  intro i j k l _ _ _ _
  by_cases h : i < 3 ∧ j < 3 ∧ k < 3 ∧ l < 3
  · exact topQuartic_symm d f i j k l h.1 h.2.1 h.2.2.1 h.2.2.2
  · simp only [topQuartic_zero d f i j k l (by omega), topQuartic_zero d f j i k l (by omega),
      topQuartic_zero d f i k j l (by omega), topQuartic_zero d f i j l k (by omega), and_self]

/-- An atom on the axis, and three about it. -/
noncomputable def fourPos (a c : Nat) : ℝ :=
  if c = 2 then (if a = 0 then 1 else -1 / 3)
  else if a = 0 then 0 else if a = 1 then (if c = 0 then 1 else 0)
  else if c = 0 then -1 / 2 else if a = 2 then Real.sqrt 3 / 2 else -(Real.sqrt 3 / 2)

/-- The atoms which the third of a turn brings to the places 0, 1, 2, 3. -/
def fourTurn (a : Nat) : Nat := if a = 1 then 3 else if a = 2 then 1 else if a = 3 then 2 else a

/-- The reflection exchanges the atoms 2 and 3. -/
def fourFlip (a : Nat) : Nat := if a = 2 then 3 else if a = 3 then 2 else a

theorem fourPos_distinct : ∀ a < 4, ∀ b < 4, (∀ c < 3, fourPos a c = fourPos b c) → a = b := by
  intro a ha b hb h
  have h0 := h 0 (by norm_num)
  have h1 := h 1 (by norm_num)
  have h2 := h 2 (by norm_num)
  have h3 : 0 < Real.sqrt 3 := Real.sqrt_pos.2 (by norm_num)
  interval_cases a <;> interval_cases b <;> first
    | rfl
    | (norm_num [fourPos] at h2; done)
    | (norm_num [fourPos] at h0; done)
    | (simp [fourPos] at h1; linarith)

/-- What an operation which leaves atom 0 in its place needs to leave the force constants of the example as they are. -/
theorem four_symmetry {a b c d f : ℝ} {π : Nat → Nat} {M : Nat → Nat → ℝ} (hπ : ∀ a < 4, π a < 4)
    (hM : ∀ u : Nat → ℝ, ∀ r < 3, brought π M u r = M r 0 * u 0 + M r 1 * u 1 + M r 2 * u 2)
    (hz : M 2 0 = 0 ∧ M 2 1 = 0 ∧ M 2 2 = 1 ∧ M 0 2 = 0 ∧ M 1 2 = 0)
    (hpos : ∀ a < 4, ∀ c < 3, fourPos a c = ∑ d ∈ range 3, M c d * fourPos (π a) d)
    (ho : M 0 0 ^ 2 + M 1 0 ^ 2 = 1 ∧ M 0 1 ^ 2 + M 1 1 ^ 2 = 1 ∧ M 0 0 * M 0 1 + M 1 0 * M 1 1 = 0)
    (h3 : ∀ x0 x1 y0 y1 z0 z1 : ℝ, (fun x0 x1 y0 y1 z0 z1 : ℝ => x0 * y0 * z0 - x0 * y1 * z1 - x1 * y0 * z1 - x1 * y1 * z0)
      (M 0 0 * x0 + M 0 1 * x1) (M 1 0 * x0 + M 1 1 * x1) (M 0 0 * y0 + M 0 1 * y1) (M 1 0 * y0 + M 1 1 * y1)
      (M 0 0 * z0 + M 0 1 * z1) (M 1 0 * z0 + M 1 1 * z1) = x0 * y0 * z0 - x0 * y1 * z1 - x1 * y0 * z1 - x1 * y1 * z0) :
    SymmetryOf 4 fourPos (fun _ => 1) idAxes (diagHessian coreLevels) (topCubic a b c) (topQuartic d f) π M := by
  obtain ⟨z1, z2, z3, z4, z5⟩ := hz
  obtain ⟨o1, o2, o3⟩ := ho
  have c0 : ∀ u, brought π M u 0 = M 0 0 * u 0 + M 0 1 * u 1 := fun u => by rw [hM u 0 (by norm_num), z4]; ring
  have c1 : ∀ u, brought π M u 1 = M 1 0 * u 0 + M 1 1 * u 1 := fun u => by rw [hM u 1 (by norm_num), z5]; ring
  have c2 : ∀ u, brought π M u 2 = u 2 := fun u => by rw [hM u 2 (by norm_num), z1, z2, z3]; ring
  have dot : ∀ u v : Nat → ℝ, brought π M u 0 * brought π M v 0 + brought π M u 1 * brought π M v 1 = u 0 * v 0 + u 1 * v 1 := by
    intro u v
    rw [c0, c1, c0, c1]
    linear_combination u 0 * v 0 * o1 + u 1 * v 1 * o2 + (u 0 * v 1 + u 1 * v 0) * o3
  refine ⟨hπ, hpos, fun _ _ => rfl, fun u v => ?_, fun u v t => ?_, fun u v t r => ?_⟩
  · simp only [applyAxes_id]
    have e : coreLevels = fun i => if i ≤ 1 then (900 : ℝ) else if i = 2 then 800 else 0 := rfl
    rw [e, show 3 * 4 = 12 from rfl, form2_core, form2_core, dot, c2, c2]
  · simp only [applyAxes_id]
    rw [show 3 * 4 = 12 from rfl, topCubic_form12, topCubic_form12, topCubic_form, topCubic_form, dot, dot, dot, c2, c2, c2,
      c0, c1, c0, c1, c0, c1]
    have := h3 (u 0) (u 1) (v 0) (v 1) (t 0) (t 1)
    simp only at this
    rw [this]
  · simp only [applyAxes_id]
    rw [show 3 * 4 = 12 from rfl, topQuartic_form12, topQuartic_form12, topQuartic_form, topQuartic_form, dot, dot, dot, dot, dot,
      dot, c2, c2, c2, c2]

theorem carried_zero {π : Nat → Nat} (h0 : π 0 = 0) (M : Nat → Nat → ℝ) (u : Nat → ℝ) (r : Nat) (hr : r < 3) :
    brought π M u r = M r 0 * u 0 + M r 1 * u 1 + M r 2 * u 2 := by
  have := carried_at π M u 0 r hr
  simpa [h0] using this

theorem four_turn (a b c d f : ℝ) :
    SymmetryOf 4 fourPos (fun _ => 1) idAxes (diagHessian coreLevels) (topCubic a b c) (topQuartic d f) fourTurn thirdTurn := by
  have s3 : Real.sqrt 3 ^ 2 = 3 := Real.sq_sqrt (by norm_num)
  refine four_symmetry (by decide) (fun u r hr => carried_zero rfl _ _ _ hr) (by simp [thirdTurn]) ?_ ?_ ?_
  · intro a ha c hc
    interval_cases a <;> interval_cases c <;> simp [sum_range_succ, fourPos, fourTurn, thirdTurn] <;> ring_nf <;> rw [s3] <;> ring
  · refine ⟨?_, ?_, ?_⟩ <;> simp [thirdTurn] <;> ring_nf <;> rw [s3] <;> ring
  · intro x0 x1 y0 y1 z0 z1
    simp [thirdTurn]
    generalize Real.sqrt 3 = q at *
    have q3 : q ^ 3 = 3 * q := by rw [pow_succ, s3]
    ring_nf
    rw [s3, q3]
    ring

theorem four_flip (a b c d f : ℝ) :
    SymmetryOf 4 fourPos (fun _ => 1) idAxes (diagHessian coreLevels) (topCubic a b c) (topQuartic d f) fourFlip (flipAxes 1) := by
  refine four_symmetry (by decide) (fun u r hr => carried_zero rfl _ _ _ hr) (by simp [flipAxes]) ?_ ?_ ?_
  · intro a ha c hc
    interval_cases a <;> interval_cases c <;> simp [sum_range_succ, fourPos, fourFlip, flipAxes]
  · simp [flipAxes]
  · intro x0 x1 y0 y1 z0 z1
    simp [flipAxes]

end Verif
