import Verif.Lemmas.Resonance

/-! # C22–C26, C63: detected resonances -/

namespace Verif

/-! ## C22 -/

/-- C22: an asymmetric top reports the Coriolis resonance `(i, j, axis)` exactly when `j < i`,
`|ωᵢ - ωⱼ| ≤ 200` and `|ζ| ≥ 0.25`, and each once. -/
theorem c22_iff (n : Nat) (freq : Vec ℝ) (zmat : T3 ℝ) :
    ∃ L, coriolis .asymmTop (degModes .asymmTop n freq) freq zmat = some L ∧ L.Nodup ∧
      ∀ i j a, (⟨i, j, a⟩ : Coriolis) ∈ L ↔
        j < i ∧ i < n ∧ a < 3 ∧ |freq i - freq j| ≤ 200 ∧ 0.25 ≤ |zmat i j a| := by
  refine ⟨_, rfl, ?_, ?_⟩
  · rw [partition_asym _ rfl]
    simp only [coriolisAsym, List.length_range]
    refine nodup_flatMap_of _ _ (fun c => c.i) (fun i => i) List.nodup_range (fun _ _ _ _ h => h) ?_ ?_
    · intro ii hi
      rw [List.mem_range] at hi
      refine nodup_flatMap_of _ _ (fun c => c.j) (fun i => i) List.nodup_range (fun _ _ _ _ h => h) ?_ ?_
      · intro jj hj
        rw [List.mem_range] at hj
        refine nodup_flatMap_of _ _ (fun c => c.axis) (fun i => i) List.nodup_range
          (fun _ _ _ _ h => h) (fun _ _ => corTest_nodup ..) ?_
        intro z hz b hb
        rw [corTest_eq hb]
      · intro jj hj b hb
        rw [List.mem_range] at hj
        obtain ⟨z, -, hb⟩ := List.mem_flatMap.1 hb
        rw [corTest_eq hb]
        exact getD_range (show jj < n by omega)
    · intro ii hi b hb
      rw [List.mem_range] at hi
      obtain ⟨jj, -, hb⟩ := List.mem_flatMap.1 hb
      obtain ⟨z, -, hb⟩ := List.mem_flatMap.1 hb
      rw [corTest_eq hb, getD_range hi]
  · intro i j a
    rw [partition_asym _ rfl]
    simp only [coriolisAsym, List.length_range, List.mem_flatMap, List.mem_range, corTest_mem]
    constructor
    · rintro ⟨ii, hi, jj, hj, z, hz, h1, h2, h3⟩
      rw [getD_range hi, getD_range (show jj < n by omega)] at *
      simp only [Coriolis.mk.injEq] at h3
      obtain ⟨rfl, rfl, rfl⟩ := h3
      exact ⟨hj, hi, hz, h1, h2⟩
    · rintro ⟨hj, hi, hz, h1, h2⟩
      refine ⟨i, hi, j, hj, a, hz, ?_⟩
      rw [getD_range hi, getD_range (show j < n by omega)]
      exact ⟨h1, h2, rfl⟩

/-- Two modes 150 apart, coupled with ζ = 1/2 about the first axis only, boundary values included: exactly
one resonance. -/
example : ∃ L, coriolis .asymmTop (degModes .asymmTop 2 fun i => (1000 - 150 * i : ℝ))
    (fun i => (1000 - 150 * i : ℝ)) (fun _ _ a => if a = 0 then (0.25 : ℝ) else 0) = some L ∧
    (⟨1, 0, 0⟩ : Coriolis) ∈ L ∧ (⟨1, 0, 1⟩ : Coriolis) ∉ L := by
  obtain ⟨L, h1, -, h2⟩ := c22_iff 2 (fun i => (1000 - 150 * i : ℝ))
    (fun _ _ a => if a = 0 then (0.25 : ℝ) else 0)
  refine ⟨L, h1, (h2 ..).2 ?_, fun h => ?_⟩
  · norm_num
  · have := (h2 ..).1 h
    norm_num at this

/-! ## C23 -/

/-- C23: an asymmetric top reports the type-1 Fermi resonance `(i, j)` exactly when `|2ωᵢ - ωⱼ| ≤ 200` and
`|φᵢᵢⱼ| ≥ 10`, and each once. -/
theorem c23_iff (n : Nat) (freq : Vec ℝ) (f3 : T3 ℝ) :
    ∃ L, fermi1 .asymmTop (degModes .asymmTop n freq) freq f3 = some L ∧ L.Nodup ∧
      ∀ i j, (⟨i, j⟩ : Fermi1) ∈ L ↔
        i < n ∧ j < n ∧ |2 * freq i - freq j| ≤ 200 ∧ 10 ≤ |f3 i i j| := by
  refine ⟨_, rfl, ?_, ?_⟩
  · rw [partition_asym _ rfl]
    refine nodup_flatMap_of _ _ (fun c => c.i) (fun i => i) List.nodup_range (fun _ _ _ _ h => h) ?_ ?_
    · intro ii hi
      refine nodup_flatMap_of _ _ (fun c => c.j) (fun i => i) List.nodup_range (fun _ _ _ _ h => h)
        (fun _ _ => (test_nodup freq f3 ii _ 0).2.1) ?_
      intro z hz b hb
      rw [(ferm1Test_mem.1 hb).2.2]
    · intro ii hi b hb
      obtain ⟨jj, -, hb⟩ := List.mem_flatMap.1 hb
      rw [(ferm1Test_mem.1 hb).2.2]
  · intro i j
    rw [partition_asym _ rfl]
    simp only [List.mem_flatMap, List.mem_range, ferm1Test_mem]
    constructor
    · rintro ⟨ii, hi, jj, hj, h1, h2, h3⟩
      simp only [Fermi1.mk.injEq] at h3
      obtain ⟨rfl, rfl⟩ := h3
      exact ⟨hi, hj, h1, h2⟩
    · rintro ⟨hi, hj, h1, h2⟩
      exact ⟨i, hi, j, hj, h1, h2, rfl⟩

/-- C23, the part about different modes that holds: if no frequency is at most 200 in magnitude, the two
modes of a reported resonance differ. Missing: it fails for low modes, see `c23_self_violated`. -/
theorem c23_different_partial (n : Nat) (freq : Vec ℝ) (f3 : T3 ℝ) (hlow : ∀ i < n, 200 < |freq i|)
    (L : List Fermi1) (hL : fermi1 .asymmTop (degModes .asymmTop n freq) freq f3 = some L) :
    ∀ r ∈ L, r.i ≠ r.j := by
  rintro ⟨i, j⟩ hr hij
  simp only at hij
  subst hij
  obtain ⟨L', h1, -, h2⟩ := c23_iff n freq f3
  obtain rfl : L' = L := Option.some.inj (h1.symm.trans hL)
  obtain ⟨hi, -, h3, -⟩ := (h2 ..).1 hr
  have := hlow i hi
  rw [show 2 * freq i - freq i = freq i by ring] at h3
  linarith

/-- A resonance between two different modes above 200: 2·500 = 1000. -/
example : ∃ L, fermi1 .asymmTop (degModes .asymmTop 2 fun i => (1000 - 500 * i : ℝ))
    (fun i => (1000 - 500 * i : ℝ)) (fun _ _ _ => (-20 : ℝ)) = some L ∧ (⟨1, 0⟩ : Fermi1) ∈ L ∧
    ∀ r ∈ L, r.i ≠ r.j := by
  obtain ⟨L, h1, -, h2⟩ := c23_iff 2 (fun i => (1000 - 500 * i : ℝ)) (fun _ _ _ => (-20 : ℝ))
  refine ⟨L, h1, (h2 ..).2 (by norm_num), c23_different_partial 2 _ _ ?_ L h1⟩
  intro i hi
  have : i = 0 ∨ i = 1 := by omega
  rcases this with rfl | rfl <;> norm_num

/-- C23 is violated: a single mode at 150 with φ₀₀₀ = 20 is reported as resonant with itself. -/
theorem c23_self_violated : ∃ (freq : Vec ℝ) (f3 : T3 ℝ) (L : List Fermi1),
    fermi1 .asymmTop (degModes .asymmTop 1 freq) freq f3 = some L ∧ (⟨0, 0⟩ : Fermi1) ∈ L := by
  obtain ⟨L, h1, -, h2⟩ := c23_iff 1 (fun _ => (150 : ℝ)) (fun _ _ _ => (20 : ℝ))
  exact ⟨_, _, L, h1, (h2 ..).2 (by norm_num)⟩

/-! ## C24 -/

/-- C24: an asymmetric top reports the type-2 Fermi resonance `(i, j, k)` exactly when `k < j < i`,
`|φᵢⱼₖ| ≥ 10` and the product of the four combinations is at most 1000 in magnitude or the largest of the
three differences is at most 200 in magnitude; each once. -/
theorem c24_iff (n : Nat) (freq : Vec ℝ) (f3 : T3 ℝ) :
    ∃ L, fermi2 .asymmTop (degModes .asymmTop n freq) freq f3 = some L ∧ L.Nodup ∧
      ∀ i j k, (⟨i, j, k⟩ : Fermi2) ∈ L ↔
        k < j ∧ j < i ∧ i < n ∧ 10 ≤ |f3 i j k| ∧
        (|(freq i - freq j - freq k) * (-freq i + freq j - freq k) * (-freq i - freq j + freq k) *
            (freq i + freq j + freq k)| ≤ 1000 ∨
          |max (freq i - freq j - freq k)
            (max (-freq i + freq j - freq k) (-freq i - freq j + freq k))| ≤ 200) := by
  refine ⟨_, rfl, ?_, ?_⟩
  · rw [partition_asym _ rfl]
    simp only [fermi2Asym, List.length_range]
    refine nodup_flatMap_of _ _ (fun c => c.i) (fun i => i) (List.nodup_range' ..)
      (fun _ _ _ _ h => h) ?_ ?_
    · intro ii hi
      rw [List.mem_range'_1] at hi
      refine nodup_flatMap_of _ _ (fun c => c.j) (fun i => i) List.nodup_range (fun _ _ _ _ h => h) ?_ ?_
      · intro jj hj
        rw [List.mem_range] at hj
        refine nodup_flatMap_of _ _ (fun c => c.k) (fun i => i) List.nodup_range
          (fun _ _ _ _ h => h) (fun _ _ => (test_nodup freq f3 _ _ _).2.2) ?_
        intro z hz b hb
        rw [List.mem_range] at hz
        rw [(ferm2Test_mem.1 hb).2.2, getD_range (show z < n by omega)]
      · intro jj hj b hb
        rw [List.mem_range] at hj
        obtain ⟨z, -, hb⟩ := List.mem_flatMap.1 hb
        rw [(ferm2Test_mem.1 hb).2.2, getD_range (show jj < n by omega)]
    · intro ii hi b hb
      rw [List.mem_range'_1] at hi
      obtain ⟨jj, -, hb⟩ := List.mem_flatMap.1 hb
      obtain ⟨z, -, hb⟩ := List.mem_flatMap.1 hb
      rw [(ferm2Test_mem.1 hb).2.2, getD_range (show ii < n by omega)]
  · intro i j k
    rw [partition_asym _ rfl]
    simp only [fermi2Asym, List.length_range, List.mem_flatMap, List.mem_range, List.mem_range'_1,
      ferm2Test_mem]
    constructor
    · rintro ⟨ii, hi, jj, hj, kk, hk, h1, h2, h3⟩
      rw [getD_range (show ii < n by omega), getD_range (show jj < n by omega),
        getD_range (show kk < n by omega)] at *
      simp only [Fermi2.mk.injEq] at h3
      obtain ⟨rfl, rfl, rfl⟩ := h3
      exact ⟨hk, hj, by omega, h1, h2⟩
    · rintro ⟨hk, hj, hi, h1, h2⟩
      refine ⟨i, by omega, j, hj, k, hk, ?_⟩
      rw [getD_range hi, getD_range (show j < n by omega), getD_range (show k < n by omega)]
      exact ⟨h1, h2, rfl⟩

/-- C24: for frequencies in descending order the largest of the three differences is
`ωₖ - ωᵢ - ωⱼ`, the detuning of the highest mode from the sum of the two lower ones. -/
theorem c24_largest (wi wj wk : ℝ) (hij : wi ≤ wj) (hjk : wj ≤ wk) :
    max (wi - wj - wk) (max (-wi + wj - wk) (-wi - wj + wk)) = wk - wi - wj := by
  rw [max_eq_right, max_eq_right]
  · ring
  · linarith
  · rw [le_max_iff]; right; linarith

/-- C24: with frequencies of at least 1 in descending order, a reported triple means that the highest
frequency is within 200 of the sum of the two lower ones, and every such triple with a large cubic constant
is reported. -/
theorem c24_meaning (n : Nat) (freq : Vec ℝ) (f3 : T3 ℝ) (hpos : ∀ i < n, 1 ≤ freq i)
    (hdesc : ∀ i j, i < j → j < n → freq j ≤ freq i) (L : List Fermi2)
    (hL : fermi2 .asymmTop (degModes .asymmTop n freq) freq f3 = some L) (i j k : Nat) :
    (⟨i, j, k⟩ : Fermi2) ∈ L ↔
      k < j ∧ j < i ∧ i < n ∧ 10 ≤ |f3 i j k| ∧ |freq k - (freq i + freq j)| ≤ 200 := by
  obtain ⟨L', h1, -, h2⟩ := c24_iff n freq f3
  obtain rfl : L' = L := Option.some.inj (h1.symm.trans hL)
  rw [h2]
  refine and_congr_right fun hk => and_congr_right fun hj => and_congr_right fun hi =>
    and_congr_right fun _ => ?_
  have pi := hpos i hi
  have hij := hdesc j i hj hi
  have hjk := hdesc k j hk (by omega)
  rw [c24_largest _ _ _ hij hjk,
    show freq k - freq i - freq j = freq k - (freq i + freq j) by ring]
  constructor
  · rintro (h | h)
    · by_contra hbig
      rw [not_le] at hbig
      -- the product is then large
      have d1 : freq k ≤ |freq i - freq j - freq k| := by
        rw [abs_of_nonpos (by linarith)]; linarith
      have d2 : 1 ≤ |-freq i + freq j - freq k| := by
        rw [abs_of_nonpos (by linarith)]; linarith
      have e3 : |-freq i - freq j + freq k| = |freq k - (freq i + freq j)| := by congr 1; ring
      have d4 : freq k ≤ |freq i + freq j + freq k| := by
        rw [abs_of_nonneg (by linarith)]; linarith
      rw [abs_mul, abs_mul, abs_mul, e3] at h
      have k100 : 100 ≤ freq k := by
        by_contra hlt
        rw [not_le] at hlt
        have : |freq k - (freq i + freq j)| ≤ 200 := by
          rw [abs_le]; constructor <;> linarith
        linarith
      have m1 : (100 : ℝ) ≤ |freq i - freq j - freq k| := le_trans k100 d1
      have m4 : (100 : ℝ) ≤ |freq i + freq j + freq k| := le_trans k100 d4
      have p1 : (100 : ℝ) * 1 ≤ |freq i - freq j - freq k| * |-freq i + freq j - freq k| :=
        mul_le_mul m1 d2 (by norm_num) (abs_nonneg _)
      have p2 : (100 : ℝ) * 1 * 200 ≤ |freq i - freq j - freq k| * |-freq i + freq j - freq k| *
          |freq k - (freq i + freq j)| :=
        mul_le_mul p1 hbig.le (by norm_num) (by positivity)
      have p3 := mul_le_mul p2 m4 (by norm_num) (by positivity)
      linarith
    · exact h
  · exact fun h => .inr h

/-- The resonance 3000 ≈ 1600 + 1500 is reported. -/
example : ∃ L, fermi2 .asymmTop (degModes .asymmTop 3
      (fun i => if i = 0 then (3000 : ℝ) else if i = 1 then 1600 else 1500))
    (fun i => if i = 0 then (3000 : ℝ) else if i = 1 then 1600 else 1500) (fun _ _ _ => (50 : ℝ))
    = some L ∧ (⟨2, 1, 0⟩ : Fermi2) ∈ L := by
  obtain ⟨L, h1, -, -⟩ := c24_iff 3 (fun i => if i = 0 then (3000 : ℝ) else if i = 1 then 1600 else 1500)
    (fun _ _ _ => (50 : ℝ))
  refine ⟨L, h1, (c24_meaning 3 _ _ ?_ ?_ L h1 2 1 0).2 ?_⟩
  · intro i hi; split_ifs <;> norm_num
  · intro i j hij hj
    split_ifs <;> first | omega | norm_num
  · norm_num

/-! ## C25 -/

theorem darlingLower_mem (l : List Nat) (freq : Vec ℝ) (c : Darling) :
    c ∈ darlingLower l freq ↔ ∃ ii jj, jj < ii ∧ ii < l.length ∧
      |2 * freq (l.getD ii 0) - 2 * freq (l.getD jj 0)| ≤ 300 ∧ c = ⟨l.getD ii 0, l.getD jj 0⟩ := by
  simp only [darlingLower, List.mem_flatMap, List.mem_range, List.mem_range'_1, darlingTest_mem]
  constructor
  · rintro ⟨ii, hi, jj, hj, h1, h2⟩
    exact ⟨ii, jj, hj, by omega, h1, h2⟩
  · rintro ⟨ii, jj, hj, hi, h1, h2⟩
    exact ⟨ii, by omega, jj, hj, h1, h2⟩

/-- C25: an asymmetric top reports the Darling–Dennison resonance `(i, j)` exactly when `j < i` and
`|2ωᵢ - 2ωⱼ| ≤ 300`, and each once. -/
theorem c25_iff (n : Nat) (freq : Vec ℝ) :
    ∃ L, darling .asymmTop (degModes .asymmTop n freq) freq = some L ∧ L.Nodup ∧
      ∀ i j, (⟨i, j⟩ : Darling) ∈ L ↔ j < i ∧ i < n ∧ |2 * freq i - 2 * freq j| ≤ 300 := by
  refine ⟨_, rfl, ?_, ?_⟩
  · rw [partition_asym _ rfl]
    simp only [darlingLower, List.length_range]
    refine nodup_flatMap_of _ _ (fun c => c.i) (fun i => i) (List.nodup_range' ..)
      (fun _ _ _ _ h => h) ?_ ?_
    · intro ii hi
      rw [List.mem_range'_1] at hi
      refine nodup_flatMap_of _ _ (fun c => c.j) (fun i => i) List.nodup_range (fun _ _ _ _ h => h)
        (fun _ _ => (test_nodup freq (fun _ _ _ => 0) _ _ 0).1) ?_
      intro jj hj b hb
      rw [List.mem_range] at hj
      rw [(darlingTest_mem.1 hb).2, getD_range (show jj < n by omega)]
    · intro ii hi b hb
      rw [List.mem_range'_1] at hi
      obtain ⟨jj, -, hb⟩ := List.mem_flatMap.1 hb
      rw [(darlingTest_mem.1 hb).2, getD_range (show ii < n by omega)]
  · intro i j
    rw [partition_asym _ rfl]
    simp only [darlingLower_mem, List.length_range]
    constructor
    · rintro ⟨ii, jj, hj, hi, h1, h2⟩
      rw [getD_range hi, getD_range (show jj < n by omega)] at *
      simp only [Darling.mk.injEq] at h2
      obtain ⟨rfl, rfl⟩ := h2
      exact ⟨hj, hi, h1⟩
    · rintro ⟨hj, hi, h1⟩
      refine ⟨i, j, hj, hi, ?_⟩
      rw [getD_range hi, getD_range (show j < n by omega)]
      exact ⟨h1, rfl⟩

/-- Two modes exactly 150 apart are reported. -/
example : ∃ L, darling .asymmTop (degModes .asymmTop 2 fun i => (1000 - 150 * i : ℝ))
    (fun i => (1000 - 150 * i : ℝ)) = some L ∧ (⟨1, 0⟩ : Darling) ∈ L := by
  obtain ⟨L, h1, -, h2⟩ := c25_iff 2 (fun i => (1000 - 150 * i : ℝ))
  exact ⟨L, h1, (h2 ..).2 (by norm_num)⟩

/-! ## C26 -/

/-- `i` is a non-degenerate mode or the first component of a degenerate pair. -/
def isRep (modes : List Mode) (i : Nat) : Prop := Mode.i1 i ∈ modes ∨ ∃ j, Mode.i2 i j ∈ modes

/-- A symmetric top other than a spherical one, or a linear molecule. -/
def axialTop (r : Rotor) : Prop := r = .oblateSymmTop ∨ r = .prolateSymmTop ∨ r = .linear

theorem part1_mem (modes : List Mode) (i : Nat) :
    i ∈ (Mode.partition modes).1 ↔ Mode.i1 i ∈ modes := by
  rw [partition_eq]
  simp only [List.mem_filterMap]
  constructor
  · rintro ⟨m, hm, h⟩
    cases m <;> simp at h
    subst h; exact hm
  · intro h; exact ⟨_, h, rfl⟩

theorem part2_mem (modes : List Mode) (q : Nat × Nat) :
    q ∈ (Mode.partition modes).2.1 ↔ Mode.i2 q.1 q.2 ∈ modes := by
  rw [partition_eq]
  simp only [List.mem_filterMap]
  constructor
  · rintro ⟨m, hm, h⟩
    cases m <;> simp at h
    subst h; exact hm
  · intro h; exact ⟨_, h, rfl⟩

theorem getD_mem {β : Type} {l : List β} {p : Nat} (d : β) (h : p < l.length) : l.getD p d ∈ l := by
  rw [List.getD_eq_getElem?_getD, List.getElem?_eq_getElem h]
  exact List.getElem_mem h

/-- The axis a zeta component is reported under: a prolate top renames `(2, 1, 0)` to `(0, 2, 1)`. -/
def reportedAxis (r : Rotor) (z : Nat) : Nat := if r = .prolateSymmTop then (z + 1) % 3 else z

/-- C26, Coriolis: a reported resonance meets the numerical criterion for the component of zeta that the
reported axis stands for, and names existing modes; a second component of a degenerate pair occurs only as
partner of the first component of another. -/
theorem c26_coriolis_sound (r : Rotor) (hr : axialTop r) (modes : List Mode) (freq : Vec ℝ)
    (zmat : T3 ℝ) (L : List Coriolis) (hL : coriolis r modes freq zmat = some L) :
    ∀ c ∈ L, isRep modes c.i ∧
      (isRep modes c.j ∨ (∃ a, Mode.i2 c.i a ∈ modes) ∧ ∃ b, Mode.i2 b c.j ∈ modes) ∧
      |freq c.i - freq c.j| ≤ 200 ∧
      ∃ z < 3, c.axis = reportedAxis r z ∧ 0.25 ≤ |zmat c.i c.j z| := by
  have hL' : L = coriolisSym r (Mode.partition modes).1 (Mode.partition modes).2.1 freq zmat := by
    rcases hr with rfl | rfl | rfl <;> exact (Option.some.inj hL).symm
  have hax : corAxes r = (reportedAxis r 2, reportedAxis r 1, reportedAxis r 0) := by
    rcases hr with rfl | rfl | rfl <;> rfl
  subst hL'
  intro c hc
  simp only [coriolisSym, hax, List.mem_append, List.mem_flatMap, List.mem_range] at hc
  have h1 : ∀ p < (Mode.partition modes).1.length,
      Mode.i1 ((Mode.partition modes).1.getD p 0) ∈ modes := fun p hp =>
    (part1_mem ..).1 (getD_mem 0 hp)
  have h2 : ∀ p < (Mode.partition modes).2.1.length,
      Mode.i2 ((Mode.partition modes).2.1.getD p (0, 0)).1
        ((Mode.partition modes).2.1.getD p (0, 0)).2 ∈ modes := fun p hp =>
    (part2_mem ..).1 (getD_mem (0, 0) hp)
  have fin : ∀ i j z, z < 3 → c ∈ corTest freq zmat i j z (reportedAxis r z) → isRep modes i →
      (isRep modes j ∨ (∃ a, Mode.i2 i a ∈ modes) ∧ ∃ b, Mode.i2 b j ∈ modes) →
      isRep modes c.i ∧
      (isRep modes c.j ∨ (∃ a, Mode.i2 c.i a ∈ modes) ∧ ∃ b, Mode.i2 b c.j ∈ modes) ∧
      |freq c.i - freq c.j| ≤ 200 ∧
      ∃ z < 3, c.axis = reportedAxis r z ∧ 0.25 ≤ |zmat c.i c.j z| := by
    intro i j z hz hc hi hj
    obtain ⟨g1, g2, rfl⟩ := corTest_mem.1 hc
    exact ⟨hi, hj, g1, z, hz, rfl, g2⟩
  rcases hc with ⟨p, hp, (⟨q, hq, hc⟩ | ⟨q, hq, hc | hc⟩)⟩ |
    ⟨p, hp, ((⟨q, hq, hc⟩ | ⟨q, hq, hc | hc⟩) | ⟨q, hq, hc⟩)⟩
  · split at hc
    · simp at hc
    · exact fin _ _ 2 (by omega) hc (.inl (h1 p hp)) (.inl (.inl (h1 q hq)))
  · exact fin _ _ 1 (by omega) hc (.inl (h1 p hp)) (.inl (.inr ⟨_, h2 q hq⟩))
  · exact fin _ _ 0 (by omega) hc (.inl (h1 p hp)) (.inl (.inr ⟨_, h2 q hq⟩))
  · split at hc
    · simp at hc
    · exact fin _ _ 2 (by omega) hc (.inr ⟨_, h2 p hp⟩) (.inr ⟨⟨_, h2 p hp⟩, _, h2 q hq⟩)
  · exact fin _ _ 1 (by omega) hc (.inr ⟨_, h2 p hp⟩) (.inl (.inl (h1 q hq)))
  · exact fin _ _ 0 (by omega) hc (.inr ⟨_, h2 p hp⟩) (.inl (.inl (h1 q hq)))
  · split at hc
    · simp at hc
    · rw [List.mem_append] at hc
      rcases hc with hc | hc
      · exact fin _ _ 1 (by omega) hc (.inr ⟨_, h2 p hp⟩) (.inl (.inr ⟨_, h2 q hq⟩))
      · exact fin _ _ 0 (by omega) hc (.inr ⟨_, h2 p hp⟩) (.inl (.inr ⟨_, h2 q hq⟩))

/-- C26, type-1 Fermi: exactly the pairs that meet the criterion, where the partner of a non-degenerate
overtone is non-degenerate and degenerate pairs are represented by their first component. -/
theorem c26_fermi1_iff (r : Rotor) (hr : axialTop r) (modes : List Mode) (freq : Vec ℝ) (f3 : T3 ℝ)
    (L : List Fermi1) (hL : fermi1 r modes freq f3 = some L) (i j : Nat) :
    (⟨i, j⟩ : Fermi1) ∈ L ↔ |2 * freq i - freq j| ≤ 200 ∧ 10 ≤ |f3 i i j| ∧
      (Mode.i1 i ∈ modes ∧ Mode.i1 j ∈ modes ∨ (∃ a, Mode.i2 i a ∈ modes) ∧ isRep modes j) := by
  have e : fermi1 r modes freq f3 = fermi1 .oblateSymmTop modes freq f3 := by
    rcases hr with rfl | rfl | rfl <;> rfl
  rw [e] at hL
  obtain rfl := Option.some.inj hL
  simp only [List.mem_append, List.mem_flatMap, ferm1Test_mem, part1_mem, part2_mem, Fermi1.mk.injEq,
    isRep]
  constructor
  · rintro (⟨a, ha, b, hb, g1, g2, rfl, rfl⟩ | ⟨⟨a, a'⟩, ha, ⟨b, hb, g1, g2, rfl, rfl⟩ |
      ⟨⟨b, b'⟩, hb, g1, g2, rfl, rfl⟩⟩)
    · exact ⟨g1, g2, .inl ⟨ha, hb⟩⟩
    · exact ⟨g1, g2, .inr ⟨⟨_, ha⟩, .inl hb⟩⟩
    · exact ⟨g1, g2, .inr ⟨⟨_, ha⟩, .inr ⟨_, hb⟩⟩⟩
  · rintro ⟨g1, g2, (⟨ha, hb⟩ | ⟨⟨a, ha⟩, hb | ⟨b, hb⟩⟩)⟩
    · exact .inl ⟨i, ha, j, hb, g1, g2, rfl, rfl⟩
    · exact .inr ⟨(i, a), ha, .inl ⟨j, hb, g1, g2, rfl, rfl⟩⟩
    · exact .inr ⟨(i, a), ha, .inr ⟨(j, b), hb, g1, g2, rfl, rfl⟩⟩

/-- C26, type-2 Fermi: a reported triple has a large cubic constant, one of its three sum/difference
combinations (or their product) is small, and it names representatives of modes. -/
theorem c26_fermi2_sound (r : Rotor) (hr : axialTop r) (modes : List Mode) (freq : Vec ℝ) (f3 : T3 ℝ)
    (L : List Fermi2) (hL : fermi2 r modes freq f3 = some L) :
    ∀ c ∈ L, isRep modes c.i ∧ isRep modes c.j ∧ isRep modes c.k ∧ 10 ≤ |f3 c.i c.j c.k| ∧
      (|(freq c.i - freq c.j - freq c.k) * (-freq c.i + freq c.j - freq c.k) *
          (-freq c.i - freq c.j + freq c.k) * (freq c.i + freq c.j + freq c.k)| ≤ 1000 ∨
        |freq c.i - freq c.j - freq c.k| ≤ 200 ∨ |-freq c.i + freq c.j - freq c.k| ≤ 200 ∨
        |-freq c.i - freq c.j + freq c.k| ≤ 200) := by
  have hL' : L = fermi2Sym (Mode.partition modes).1 ((Mode.partition modes).2.1.map (·.1)) freq f3 := by
    rcases hr with rfl | rfl | rfl <;> exact (Option.some.inj hL).symm
  subst hL'
  have h1 : ∀ p < (Mode.partition modes).1.length,
      isRep modes ((Mode.partition modes).1.getD p 0) := fun p hp =>
    .inl ((part1_mem ..).1 (getD_mem 0 hp))
  have h2 : ∀ p < ((Mode.partition modes).2.1.map (·.1)).length,
      isRep modes (((Mode.partition modes).2.1.map (·.1)).getD p 0) := by
    intro p hp
    have := getD_mem 0 hp
    rw [List.mem_map] at this
    obtain ⟨q, hq, e⟩ := this
    rw [← e]
    exact .inr ⟨_, (part2_mem ..).1 hq⟩
  have m : ∀ x y z : ℝ, |max x (max y z)| ≤ 200 → |x| ≤ 200 ∨ |y| ≤ 200 ∨ |z| ≤ 200 := by
    intro x y z h
    rcases max_choice x (max y z) with e | e
    · rw [e] at h; exact .inl h
    · rcases max_choice y z with e' | e'
      · rw [e, e'] at h; exact .inr (.inl h)
      · rw [e, e'] at h; exact .inr (.inr h)
  have fin : ∀ c i j k, c ∈ ferm2Test freq i j k f3 → isRep modes i → isRep modes j → isRep modes k →
      isRep modes c.i ∧ isRep modes c.j ∧ isRep modes c.k ∧ 10 ≤ |f3 c.i c.j c.k| ∧
      (|(freq c.i - freq c.j - freq c.k) * (-freq c.i + freq c.j - freq c.k) *
          (-freq c.i - freq c.j + freq c.k) * (freq c.i + freq c.j + freq c.k)| ≤ 1000 ∨
        |freq c.i - freq c.j - freq c.k| ≤ 200 ∨ |-freq c.i + freq c.j - freq c.k| ≤ 200 ∨
        |-freq c.i - freq c.j + freq c.k| ≤ 200) := by
    intro c i j k hc hi hj hk
    obtain ⟨g1, g2, rfl⟩ := ferm2Test_mem.1 hc
    exact ⟨hi, hj, hk, g1, g2.imp id (m _ _ _)⟩
  have fin' : ∀ c i j k, c ∈ ferm2Test' freq i j k f3 → isRep modes i → isRep modes j →
      isRep modes k →
      isRep modes c.i ∧ isRep modes c.j ∧ isRep modes c.k ∧ 10 ≤ |f3 c.i c.j c.k| ∧
      (|(freq c.i - freq c.j - freq c.k) * (-freq c.i + freq c.j - freq c.k) *
          (-freq c.i - freq c.j + freq c.k) * (freq c.i + freq c.j + freq c.k)| ≤ 1000 ∨
        |freq c.i - freq c.j - freq c.k| ≤ 200 ∨ |-freq c.i + freq c.j - freq c.k| ≤ 200 ∨
        |-freq c.i - freq c.j + freq c.k| ≤ 200) := by
    intro c i j k hc hi hj hk
    obtain ⟨g1, g2, rfl⟩ := ferm2Test'_mem.1 hc
    exact ⟨hi, hj, hk, g1, g2⟩
  intro c hc
  simp only [fermi2Sym, List.mem_append, List.mem_flatMap, List.mem_range, List.mem_range'_1] at hc
  rcases hc with (⟨p, hp, (⟨q, hq, s, hs, hc⟩ | ⟨q, hq, s, hs, hc⟩)⟩ |
    ⟨p, hp, q, hq, (⟨s, hs, hc⟩ | ⟨s, hs, hc⟩)⟩) | ⟨p, hp, q, hq, (⟨s, hs, hc⟩ | ⟨s, hs, hc⟩)⟩
  · exact fin _ _ _ _ hc (h1 _ (by omega)) (h1 _ (by omega)) (h1 _ hs)
  · exact fin _ _ _ _ hc (h1 _ (by omega)) (h2 _ hq) (h2 _ hs)
  · exact fin _ _ _ _ hc (h2 _ (by omega)) (h2 _ (by omega)) (h1 _ hs)
  · exact fin _ _ _ _ hc (h2 _ (by omega)) (h2 _ (by omega)) (h2 _ hs)
  · exact fin' _ _ _ _ hc (h2 _ hp) (h2 _ (by omega)) (h1 _ hs)
  · exact fin' _ _ _ _ hc (h2 _ hp) (h2 _ (by omega)) (h2 _ hs)

theorem darling_sym_mem (r : Rotor) (hr : axialTop r) (modes : List Mode) (freq : Vec ℝ)
    (L : List Darling) (hL : darling r modes freq = some L) (c : Darling) : c ∈ L ↔
      (∃ ii, 1 ≤ ii ∧ ii < (Mode.partition modes).1.length ∧
        ((∃ jj < ii, |2 * freq ((Mode.partition modes).1.getD ii 0) -
            2 * freq ((Mode.partition modes).1.getD jj 0)| ≤ 300 ∧
            c = ⟨(Mode.partition modes).1.getD ii 0, (Mode.partition modes).1.getD jj 0⟩) ∨
          (∃ q ∈ (Mode.partition modes).2.1, |2 * freq ((Mode.partition modes).1.getD ii 0) -
            2 * freq q.1| ≤ 300 ∧ c = ⟨(Mode.partition modes).1.getD ii 0, q.1⟩))) ∨
      (∃ ii jj, jj < ii ∧ ii < ((Mode.partition modes).2.1.map (·.1)).length ∧
        |2 * freq (((Mode.partition modes).2.1.map (·.1)).getD ii 0) -
          2 * freq (((Mode.partition modes).2.1.map (·.1)).getD jj 0)| ≤ 300 ∧
        c = ⟨((Mode.partition modes).2.1.map (·.1)).getD ii 0,
          ((Mode.partition modes).2.1.map (·.1)).getD jj 0⟩) := by
  have e : darling r modes freq = darling .oblateSymmTop modes freq := by
    rcases hr with rfl | rfl | rfl <;> rfl
  rw [e] at hL
  obtain rfl := Option.some.inj hL
  rw [List.mem_append, darlingLower_mem]
  refine or_congr ?_ Iff.rfl
  simp only [List.mem_flatMap, List.mem_append, List.mem_range, List.mem_range'_1, darlingTest_mem]
  constructor
  · rintro ⟨ii, hi, (⟨jj, hj, h⟩ | ⟨jj, hj, h⟩)⟩
    · exact ⟨ii, hi.1, by omega, .inl ⟨jj, hj, h⟩⟩
    · exact ⟨ii, hi.1, by omega, .inr ⟨_, getD_mem (0, 0) hj, h⟩⟩
  · rintro ⟨ii, hi, hi', (⟨jj, hj, h⟩ | ⟨q, hq, h⟩)⟩
    · exact ⟨ii, by omega, .inl ⟨jj, hj, h⟩⟩
    · obtain ⟨jj, hj, e⟩ := List.mem_iff_getElem.1 hq
      refine ⟨ii, by omega, .inr ⟨jj, hj, ?_⟩⟩
      have g : (Mode.partition modes).2.1.getD jj (0, 0) = q := by
        simp [List.getD_eq_getElem?_getD, hj, e]
      rw [g]
      exact h

/-- C26, Darling–Dennison: a reported pair meets the criterion and names representatives of modes. -/
theorem c26_darling_sound (r : Rotor) (hr : axialTop r) (modes : List Mode) (freq : Vec ℝ)
    (L : List Darling) (hL : darling r modes freq = some L) :
    ∀ c ∈ L, isRep modes c.i ∧ isRep modes c.j ∧ |2 * freq c.i - 2 * freq c.j| ≤ 300 := by
  intro c hc
  have h1 : ∀ p < (Mode.partition modes).1.length,
      isRep modes ((Mode.partition modes).1.getD p 0) := fun p hp =>
    .inl ((part1_mem ..).1 (getD_mem 0 hp))
  have h2 : ∀ p < ((Mode.partition modes).2.1.map (·.1)).length,
      isRep modes (((Mode.partition modes).2.1.map (·.1)).getD p 0) := by
    intro p hp
    have := getD_mem 0 hp
    rw [List.mem_map] at this
    obtain ⟨q, hq, e⟩ := this
    rw [← e]
    exact .inr ⟨_, (part2_mem ..).1 hq⟩
  rcases (darling_sym_mem r hr modes freq L hL c).1 hc with
    ⟨ii, -, hi, (⟨jj, hj, h, rfl⟩ | ⟨q, hq, h, rfl⟩)⟩ | ⟨ii, jj, hj, hi, h, rfl⟩
  · exact ⟨h1 _ hi, h1 _ (by omega), h⟩
  · exact ⟨h1 _ hi, .inr ⟨_, (part2_mem ..).1 hq⟩, h⟩
  · exact ⟨h2 _ hi, h2 _ (by omega), h⟩

/-- Two degenerate pairs and a non-degenerate mode, for the examples below. -/
def modes221 : List Mode := [.i2 0 1, .i2 2 3, .i1 4]

/-- Their frequencies: 1000, 1000, 1500, 1500, 2500. -/
def freq221 : Vec ℝ := fun i => if i < 2 then 1000 else if i < 4 then 1500 else 2500

/-- C26 is violated for duplicates: the type-2 resonance between two degenerate modes and a non-degenerate
one is reported twice. -/
theorem c26_fermi2_duplicate_violated : ∃ L, fermi2 .oblateSymmTop modes221 freq221
    (fun _ _ _ => (20 : ℝ)) = some L ∧ ¬ L.Nodup := by
  refine ⟨_, rfl, ?_⟩
  have hp : Mode.partition modes221 = ([4], [(0, 1), (2, 3)], []) := rfl
  rw [hp]
  simp only [fermi2Sym, List.map_cons, List.map_nil, List.length_cons, List.length_nil]
  intro hnd
  rw [List.nodup_append] at hnd
  have hd := hnd.2.2
  refine hd ⟨2, 0, 4⟩ ?_ ⟨2, 0, 4⟩ ?_ rfl
  · refine List.mem_append_right _ (List.mem_flatMap.2 ⟨1, by decide, List.mem_flatMap.2 ⟨0, by decide,
      List.mem_append_left _ (List.mem_flatMap.2 ⟨0, by decide, ?_⟩)⟩⟩)
    refine ferm2Test_mem.2 ⟨by norm_num, ?_, rfl⟩
    right
    simp [freq221]
    norm_num
  · refine List.mem_flatMap.2 ⟨1, by decide, List.mem_flatMap.2 ⟨0, by decide,
      List.mem_append_left _ (List.mem_flatMap.2 ⟨0, by decide, ?_⟩)⟩⟩
    refine ferm2Test'_mem.2 ⟨by norm_num, ?_, rfl⟩
    right; right; right
    simp [freq221]
    norm_num

/-- C26: Coriolis pairs of a symmetric top are reported in both orders (for an antisymmetric zeta): here
two non-degenerate modes. -/
theorem c26_coriolis_both_orders : ∃ L, coriolis .oblateSymmTop [.i1 0, .i1 1] (fun _ => (1000 : ℝ))
    (fun i j _ => if i < j then (0.5 : ℝ) else if j < i then -0.5 else 0) = some L ∧
    (⟨0, 1, 2⟩ : Coriolis) ∈ L ∧ (⟨1, 0, 2⟩ : Coriolis) ∈ L := by
  refine ⟨_, rfl, ?_, ?_⟩
  · refine List.mem_append_left _ (List.mem_flatMap.2 ⟨0, by decide, List.mem_append_left _
      (List.mem_flatMap.2 ⟨1, by decide, ?_⟩)⟩)
    simp only [Nat.zero_ne_one, if_false]
    refine corTest_mem.2 ⟨by norm_num, ?_, rfl⟩
    simp [Mode.partition]; norm_num
  · refine List.mem_append_left _ (List.mem_flatMap.2 ⟨1, by decide, List.mem_append_left _
      (List.mem_flatMap.2 ⟨0, by decide, ?_⟩)⟩)
    simp only [Nat.one_ne_zero, if_false]
    refine corTest_mem.2 ⟨by norm_num, ?_, rfl⟩
    simp [Mode.partition]; norm_num

/-- The hypotheses of the C26 theorems are met: an oblate top with two degenerate pairs reports the type-2
resonance 1500 + 1000 = 2500. -/
example : ∃ L, fermi2 .oblateSymmTop modes221 freq221 (fun _ _ _ => (20 : ℝ)) = some L ∧
    (∀ c ∈ L, isRep modes221 c.i ∧ isRep modes221 c.j ∧ isRep modes221 c.k) ∧ L ≠ [] := by
  obtain ⟨L, hL, hd⟩ := c26_fermi2_duplicate_violated
  refine ⟨L, hL, fun c hc => ?_, ?_⟩
  · have := c26_fermi2_sound .oblateSymmTop (.inl rfl) modes221 freq221 _ L hL c hc
    exact ⟨this.1, this.2.1, this.2.2.1⟩
  · rintro rfl
    exact hd List.nodup_nil

/-- C26: nothing is missed among the Coriolis pairs allowed by symmetry: about the unique axis two
non-degenerate modes, or the first component of one degenerate pair with the second of another; about the
other axes two representatives of which at least one is degenerate. -/
theorem c26_coriolis_complete (r : Rotor) (hr : axialTop r) (modes : List Mode) (freq : Vec ℝ)
    (zmat : T3 ℝ) (L : List Coriolis) (hL : coriolis r modes freq zmat = some L) (i j z : Nat)
    (hw : |freq i - freq j| ≤ 200) (hz : 0.25 ≤ |zmat i j z|)
    (hcase : (z = 2 ∧ ((i ≠ j ∧ Mode.i1 i ∈ modes ∧ Mode.i1 j ∈ modes) ∨
        ∃ a b, Mode.i2 i a ≠ Mode.i2 b j ∧ Mode.i2 i a ∈ modes ∧ Mode.i2 b j ∈ modes)) ∨
      ((z = 0 ∨ z = 1) ∧ ((Mode.i1 i ∈ modes ∧ ∃ b, Mode.i2 j b ∈ modes) ∨
        ((∃ a, Mode.i2 i a ∈ modes) ∧ Mode.i1 j ∈ modes) ∨
        ∃ a b, Mode.i2 i a ≠ Mode.i2 j b ∧ Mode.i2 i a ∈ modes ∧ Mode.i2 j b ∈ modes))) :
    (⟨i, j, reportedAxis r z⟩ : Coriolis) ∈ L := by
  have hL' : L = coriolisSym r (Mode.partition modes).1 (Mode.partition modes).2.1 freq zmat := by
    rcases hr with rfl | rfl | rfl <;> exact (Option.some.inj hL).symm
  have hax : corAxes r = (reportedAxis r 2, reportedAxis r 1, reportedAxis r 0) := by
    rcases hr with rfl | rfl | rfl <;> rfl
  subst hL'
  have h1 : ∀ i, Mode.i1 i ∈ modes → ∃ p < (Mode.partition modes).1.length,
      (Mode.partition modes).1.getD p 0 = i := by
    intro i hi
    obtain ⟨a, ha, ea⟩ := List.mem_iff_getElem.1 ((part1_mem ..).2 hi)
    exact ⟨a, ha, by simp [List.getD_eq_getElem?_getD, ha, ea]⟩
  have h2 : ∀ i a, Mode.i2 i a ∈ modes → ∃ p < (Mode.partition modes).2.1.length,
      (Mode.partition modes).2.1.getD p (0, 0) = (i, a) := by
    intro i b hi
    obtain ⟨a, ha, ea⟩ := List.mem_iff_getElem.1 ((part2_mem modes (i, b)).2 hi)
    exact ⟨a, ha, by simp [List.getD_eq_getElem?_getD, ha, ea]⟩
  have test : (⟨i, j, reportedAxis r z⟩ : Coriolis) ∈ corTest freq zmat i j z (reportedAxis r z) :=
    corTest_mem.2 ⟨hw, hz, rfl⟩
  have test' : (z = 0 ∨ z = 1) → (⟨i, j, reportedAxis r z⟩ : Coriolis) ∈
      corTest freq zmat i j 1 (reportedAxis r 1) ++ corTest freq zmat i j 0 (reportedAxis r 0) := by
    rintro (rfl | rfl)
    · exact List.mem_append_right _ test
    · exact List.mem_append_left _ test
  simp only [coriolisSym, hax, List.mem_append, List.mem_flatMap, List.mem_range]
  rcases hcase with ⟨rfl, (⟨hij, hi, hj⟩ | ⟨a, b, hij, hi, hj⟩)⟩ |
    ⟨hz', (⟨hi, b, hj⟩ | ⟨⟨a, hi⟩, hj⟩ | ⟨a, b, hij, hi, hj⟩)⟩
  · obtain ⟨p, hp, rfl⟩ := h1 i hi
    obtain ⟨q, hq, rfl⟩ := h1 j hj
    refine .inl ⟨p, hp, .inl ⟨q, hq, ?_⟩⟩
    rw [if_neg (by rintro rfl; exact hij rfl)]
    exact test
  · obtain ⟨p, hp, e⟩ := h2 i a hi
    obtain ⟨q, hq, e'⟩ := h2 b j hj
    refine .inr ⟨p, hp, .inl (.inl ⟨q, hq, ?_⟩)⟩
    rw [if_neg, e, e']
    · exact test
    · rintro rfl
      rw [e] at e'
      simp only [Prod.mk.injEq] at e'
      exact hij (by rw [e'.1, ← e'.2])
  · obtain ⟨p, hp, rfl⟩ := h1 i hi
    obtain ⟨q, hq, e'⟩ := h2 j b hj
    refine .inl ⟨p, hp, .inr ⟨q, hq, ?_⟩⟩
    rw [e']
    exact List.mem_append.1 (test' hz')
  · obtain ⟨p, hp, e⟩ := h2 i a hi
    obtain ⟨q, hq, rfl⟩ := h1 j hj
    refine .inr ⟨p, hp, .inl (.inr ⟨q, hq, ?_⟩)⟩
    rw [e]
    exact List.mem_append.1 (test' hz')
  · obtain ⟨p, hp, e⟩ := h2 i a hi
    obtain ⟨q, hq, e'⟩ := h2 j b hj
    refine .inr ⟨p, hp, .inr ⟨q, hq, ?_⟩⟩
    rw [if_neg, e, e']
    · exact test' hz'
    · rintro rfl
      rw [e] at e'
      simp only [Prod.mk.injEq] at e'
      exact hij (by rw [e'.1, ← e'.2])

/-- The hypotheses of `c26_coriolis_complete` are met: a non-degenerate and a degenerate mode of a prolate
top; the component `0` of zeta is reported under axis 1. -/
example : ∃ L, coriolis .prolateSymmTop [.i1 0, .i2 1 2] (fun _ => (1000 : ℝ)) (fun _ _ _ => 0.5) = some L ∧
    (⟨0, 1, 1⟩ : Coriolis) ∈ L :=
  ⟨_, rfl, c26_coriolis_complete .prolateSymmTop (.inr (.inl rfl)) _ _ _ _ rfl 0 1 0 (by norm_num)
    (by norm_num [abs_le]) (.inr ⟨.inl rfl, .inl ⟨by decide, 2, by decide⟩⟩)⟩

theorem nodup_part1 {modes : List Mode} (h : modes.Nodup) : (Mode.partition modes).1.Nodup := by
  rw [partition_eq]
  refine h.filterMap ?_
  intro a a' b hb hb'
  cases a <;> cases a' <;> simp_all

theorem nodup_part2 {modes : List Mode} (h : modes.Nodup) : (Mode.partition modes).2.1.Nodup := by
  rw [partition_eq]
  refine h.filterMap ?_
  intro a a' b hb hb'
  cases a <;> cases a' <;> simp_all [Prod.ext_iff]

/-- C26: the Coriolis resonances of a symmetric top exactly. -/
theorem c26_coriolis_iff (r : Rotor) (hr : axialTop r) (modes : List Mode) (hnd : modes.Nodup)
    (freq : Vec ℝ) (zmat : T3 ℝ) (L : List Coriolis) (hL : coriolis r modes freq zmat = some L)
    (i j x : Nat) :
    (⟨i, j, x⟩ : Coriolis) ∈ L ↔ ∃ z, x = reportedAxis r z ∧
      |freq i - freq j| ≤ 200 ∧ 0.25 ≤ |zmat i j z| ∧
      ((z = 2 ∧ ((i ≠ j ∧ Mode.i1 i ∈ modes ∧ Mode.i1 j ∈ modes) ∨
        ∃ a b, Mode.i2 i a ≠ Mode.i2 b j ∧ Mode.i2 i a ∈ modes ∧ Mode.i2 b j ∈ modes)) ∨
      ((z = 0 ∨ z = 1) ∧ ((Mode.i1 i ∈ modes ∧ ∃ b, Mode.i2 j b ∈ modes) ∨
        ((∃ a, Mode.i2 i a ∈ modes) ∧ Mode.i1 j ∈ modes) ∨
        ∃ a b, Mode.i2 i a ≠ Mode.i2 j b ∧ Mode.i2 i a ∈ modes ∧ Mode.i2 j b ∈ modes))) := by
  constructor
  swap
  · rintro ⟨z, rfl, h1, h2, h3⟩
    exact c26_coriolis_complete r hr modes freq zmat L hL i j z h1 h2 h3
  have hL' : L = coriolisSym r (Mode.partition modes).1 (Mode.partition modes).2.1 freq zmat := by
    rcases hr with rfl | rfl | rfl <;> exact (Option.some.inj hL).symm
  have hax : corAxes r = (reportedAxis r 2, reportedAxis r 1, reportedAxis r 0) := by
    rcases hr with rfl | rfl | rfl <;> rfl
  subst hL'
  intro hc
  simp only [coriolisSym, hax, List.mem_append, List.mem_flatMap, List.mem_range] at hc
  have h1 : ∀ p < (Mode.partition modes).1.length,
      Mode.i1 ((Mode.partition modes).1.getD p 0) ∈ modes := fun p hp =>
    (part1_mem ..).1 (getD_mem 0 hp)
  have h2 : ∀ p < (Mode.partition modes).2.1.length,
      Mode.i2 ((Mode.partition modes).2.1.getD p (0, 0)).1
        ((Mode.partition modes).2.1.getD p (0, 0)).2 ∈ modes := fun p hp =>
    (part2_mem ..).1 (getD_mem (0, 0) hp)
  have n1 : ∀ p q, p < (Mode.partition modes).1.length → q < (Mode.partition modes).1.length → p ≠ q →
      (Mode.partition modes).1.getD p 0 ≠ (Mode.partition modes).1.getD q 0 := by
    intro p q hp hq hpq e
    simp only [List.getD_eq_getElem?_getD, List.getElem?_eq_getElem hp, List.getElem?_eq_getElem hq,
      Option.getD_some] at e
    exact hpq ((nodup_part1 hnd).getElem_inj_iff.1 e)
  have n2 : ∀ p q, p < (Mode.partition modes).2.1.length → q < (Mode.partition modes).2.1.length → p ≠ q →
      (Mode.partition modes).2.1.getD p (0, 0) ≠ (Mode.partition modes).2.1.getD q (0, 0) := by
    intro p q hp hq hpq e
    simp only [List.getD_eq_getElem?_getD, List.getElem?_eq_getElem hp, List.getElem?_eq_getElem hq,
      Option.getD_some] at e
    exact hpq ((nodup_part2 hnd).getElem_inj_iff.1 e)
  rcases hc with ⟨p, hp, (⟨q, hq, hc⟩ | ⟨q, hq, hc | hc⟩)⟩ |
    ⟨p, hp, ((⟨q, hq, hc⟩ | ⟨q, hq, hc | hc⟩) | ⟨q, hq, hc⟩)⟩
  · split at hc
    · simp at hc
    · next hpq =>
      obtain ⟨g1, g2, e⟩ := corTest_mem.1 hc
      simp only [Coriolis.mk.injEq] at e
      obtain ⟨rfl, rfl, rfl⟩ := e
      exact ⟨2, rfl, g1, g2, .inl ⟨rfl, .inl ⟨n1 p q hp hq hpq, h1 p hp, h1 q hq⟩⟩⟩
  · obtain ⟨g1, g2, e⟩ := corTest_mem.1 hc
    simp only [Coriolis.mk.injEq] at e
    obtain ⟨rfl, rfl, rfl⟩ := e
    exact ⟨1, rfl, g1, g2, .inr ⟨.inr rfl, .inl ⟨h1 p hp, _, h2 q hq⟩⟩⟩
  · obtain ⟨g1, g2, e⟩ := corTest_mem.1 hc
    simp only [Coriolis.mk.injEq] at e
    obtain ⟨rfl, rfl, rfl⟩ := e
    exact ⟨0, rfl, g1, g2, .inr ⟨.inl rfl, .inl ⟨h1 p hp, _, h2 q hq⟩⟩⟩
  · split at hc
    · simp at hc
    · next hpq =>
      obtain ⟨g1, g2, e⟩ := corTest_mem.1 hc
      simp only [Coriolis.mk.injEq] at e
      obtain ⟨rfl, rfl, rfl⟩ := e
      refine ⟨2, rfl, g1, g2, .inl ⟨rfl, .inr ⟨_, _, ?_, h2 p hp, h2 q hq⟩⟩⟩
      intro e
      simp only [Mode.i2.injEq] at e
      exact n2 p q hp hq hpq (Prod.ext e.1 e.2)
  · obtain ⟨g1, g2, e⟩ := corTest_mem.1 hc
    simp only [Coriolis.mk.injEq] at e
    obtain ⟨rfl, rfl, rfl⟩ := e
    exact ⟨1, rfl, g1, g2, .inr ⟨.inr rfl, .inr (.inl ⟨⟨_, h2 p hp⟩, h1 q hq⟩)⟩⟩
  · obtain ⟨g1, g2, e⟩ := corTest_mem.1 hc
    simp only [Coriolis.mk.injEq] at e
    obtain ⟨rfl, rfl, rfl⟩ := e
    exact ⟨0, rfl, g1, g2, .inr ⟨.inl rfl, .inr (.inl ⟨⟨_, h2 p hp⟩, h1 q hq⟩)⟩⟩
  · split at hc
    · simp at hc
    · next hpq =>
      have hne : Mode.i2 ((Mode.partition modes).2.1.getD p (0, 0)).1
          ((Mode.partition modes).2.1.getD p (0, 0)).2 ≠
          Mode.i2 ((Mode.partition modes).2.1.getD q (0, 0)).1
          ((Mode.partition modes).2.1.getD q (0, 0)).2 := by
        intro e
        simp only [Mode.i2.injEq] at e
        exact n2 p q hp hq hpq (Prod.ext e.1 e.2)
      rw [List.mem_append] at hc
      rcases hc with hc | hc
      · obtain ⟨g1, g2, e⟩ := corTest_mem.1 hc
        simp only [Coriolis.mk.injEq] at e
        obtain ⟨rfl, rfl, rfl⟩ := e
        exact ⟨1, rfl, g1, g2, .inr ⟨.inr rfl, .inr (.inr ⟨_, _, hne, h2 p hp, h2 q hq⟩)⟩⟩
      · obtain ⟨g1, g2, e⟩ := corTest_mem.1 hc
        simp only [Coriolis.mk.injEq] at e
        obtain ⟨rfl, rfl, rfl⟩ := e
        exact ⟨0, rfl, g1, g2, .inr ⟨.inl rfl, .inr (.inr ⟨_, _, hne, h2 p hp, h2 q hq⟩)⟩⟩

/-- C26: nothing is missed among the type-2 Fermi resonances between three different modes allowed by
symmetry (three non-degenerate modes, or at least two degenerate ones): with non-negative frequencies and a
cubic table symmetric in its first two indices each is reported in some order. -/
theorem c26_fermi2_complete (r : Rotor) (hr : axialTop r) (modes : List Mode) (freq : Vec ℝ) (f3 : T3 ℝ)
    (hpos : ∀ i, 0 ≤ freq i) (h12 : ∀ i j k, f3 i j k = f3 j i k)
    (L : List Fermi2) (hL : fermi2 r modes freq f3 = some L) (i j k : Nat)
    (hij : i ≠ j) (hf : 10 ≤ |f3 i j k|)
    (hd : |freq i - freq j - freq k| ≤ 200 ∨ |-freq i + freq j - freq k| ≤ 200 ∨
      |-freq i - freq j + freq k| ≤ 200)
    (hcase : (Mode.i1 i ∈ modes ∧ Mode.i1 j ∈ modes ∧ Mode.i1 k ∈ modes) ∨
      ((∃ a, Mode.i2 i a ∈ modes) ∧ (∃ a, Mode.i2 j a ∈ modes) ∧ isRep modes k)) :
    (⟨i, j, k⟩ : Fermi2) ∈ L ∨ (⟨j, i, k⟩ : Fermi2) ∈ L := by
  have hL' : L = fermi2Sym (Mode.partition modes).1 ((Mode.partition modes).2.1.map (·.1)) freq f3 := by
    rcases hr with rfl | rfl | rfl <;> exact (Option.some.inj hL).symm
  subst hL'
  have hpi := hpos i
  have hpj := hpos j
  have hpk := hpos k
  have nn : ∀ l : List Nat, i ∈ l → j ∈ l → ∃ a b, b < a ∧ a < l.length ∧
      ((l.getD a 0 = i ∧ l.getD b 0 = j) ∨ (l.getD a 0 = j ∧ l.getD b 0 = i)) := by
    intro l h1 h2
    obtain ⟨a, ha, ea⟩ := List.mem_iff_getElem.1 h1
    obtain ⟨b, hb, eb⟩ := List.mem_iff_getElem.1 h2
    have ga : l.getD a 0 = i := by simp [List.getD_eq_getElem?_getD, ha, ea]
    have gb : l.getD b 0 = j := by simp [List.getD_eq_getElem?_getD, hb, eb]
    rcases Nat.lt_trichotomy a b with h | h | h
    · exact ⟨b, a, h, hb, .inr ⟨gb, ga⟩⟩
    · subst h; exact absurd (ga.symm.trans gb) hij
    · exact ⟨a, b, h, ha, .inl ⟨ga, gb⟩⟩
  have at' : ∀ l : List Nat, k ∈ l → ∃ a < l.length, l.getD a 0 = k := by
    intro l h1
    obtain ⟨a, ha, ea⟩ := List.mem_iff_getElem.1 h1
    exact ⟨a, ha, by simp [List.getD_eq_getElem?_getD, ha, ea]⟩
  have hmax : |max (freq i - freq j - freq k)
      (max (-freq i + freq j - freq k) (-freq i - freq j + freq k))| ≤ 200 := by
    rw [abs_le]
    rcases hd with h | h | h <;> rw [abs_le] at h <;> refine ⟨?_, ?_⟩
    · rw [le_max_iff]; left; exact h.1
    · refine max_le h.2 (max_le ?_ ?_) <;> linarith
    · rw [le_max_iff, le_max_iff]; right; left; exact h.1
    · refine max_le ?_ (max_le h.2 ?_) <;> linarith
    · rw [le_max_iff, le_max_iff]; right; right; exact h.1
    · refine max_le ?_ (max_le ?_ h.2) <;> linarith
  have tij : (⟨i, j, k⟩ : Fermi2) ∈ ferm2Test freq i j k f3 := ferm2Test_mem.2 ⟨hf, .inr hmax, rfl⟩
  have tji : (⟨j, i, k⟩ : Fermi2) ∈ ferm2Test freq j i k f3 := by
    refine ferm2Test_mem.2 ⟨by rw [h12]; exact hf, .inr ?_, rfl⟩
    rw [show freq j - freq i - freq k = -freq i + freq j - freq k by ring,
      show -freq j + freq i - freq k = freq i - freq j - freq k by ring,
      show -freq j - freq i + freq k = -freq i - freq j + freq k by ring, max_left_comm]
    exact hmax
  have tij' : (⟨i, j, k⟩ : Fermi2) ∈ ferm2Test' freq i j k f3 := ferm2Test'_mem.2 ⟨hf, .inr hd, rfl⟩
  have tji' : (⟨j, i, k⟩ : Fermi2) ∈ ferm2Test' freq j i k f3 := by
    refine ferm2Test'_mem.2 ⟨by rw [h12]; exact hf, .inr ?_, rfl⟩
    rw [show freq j - freq i - freq k = -freq i + freq j - freq k by ring,
      show -freq j + freq i - freq k = freq i - freq j - freq k by ring,
      show -freq j - freq i + freq k = -freq i - freq j + freq k by ring]
    rcases hd with h | h | h
    · exact .inr (.inl h)
    · exact .inl h
    · exact .inr (.inr h)
  have first : ∀ x, (∃ a, Mode.i2 x a ∈ modes) → x ∈ (Mode.partition modes).2.1.map (·.1) := by
    rintro x ⟨a, ha⟩
    exact List.mem_map.2 ⟨(x, a), (part2_mem ..).2 ha, rfl⟩
  simp only [fermi2Sym, List.mem_append, List.mem_flatMap, List.mem_range, List.mem_range'_1]
  rcases hcase with ⟨hi, hj, hk⟩ | ⟨hi, hj, hk⟩
  · obtain ⟨c, hc, ec⟩ := at' _ ((part1_mem ..).2 hk)
    obtain ⟨a, b, h1, h2, (⟨ea, eb⟩ | ⟨ea, eb⟩)⟩ :=
      nn _ ((part1_mem ..).2 hi) ((part1_mem ..).2 hj)
    · exact .inl (.inl (.inl ⟨a, by omega, .inl ⟨b, h1, c, hc, by rw [ea, eb, ec]; exact tij⟩⟩))
    · exact .inr (.inl (.inl ⟨a, by omega, .inl ⟨b, h1, c, hc, by rw [ea, eb, ec]; exact tji⟩⟩))
  · obtain ⟨a, b, h1, h2, h⟩ := nn _ (first i hi) (first j hj)
    rcases hk with hk | hk
    · obtain ⟨c, hc, ec⟩ := at' _ ((part1_mem ..).2 hk)
      rcases h with ⟨ea, eb⟩ | ⟨ea, eb⟩
      · exact .inl (.inr ⟨a, h2, b, h1, .inl ⟨c, hc, by rw [ea, eb, ec]; exact tij'⟩⟩)
      · exact .inr (.inr ⟨a, h2, b, h1, .inl ⟨c, hc, by rw [ea, eb, ec]; exact tji'⟩⟩)
    · obtain ⟨c, hc, ec⟩ := at' _ (first k hk)
      rcases h with ⟨ea, eb⟩ | ⟨ea, eb⟩
      · exact .inl (.inr ⟨a, h2, b, h1, .inr ⟨c, hc, by rw [ea, eb, ec]; exact tij'⟩⟩)
      · exact .inr (.inr ⟨a, h2, b, h1, .inr ⟨c, hc, by rw [ea, eb, ec]; exact tji'⟩⟩)

/-- The hypotheses of `c26_fermi2_complete` are met by the modes of the example above. -/
example : ∃ L, fermi2 .oblateSymmTop modes221 freq221 (fun _ _ _ => (20 : ℝ)) = some L ∧
    ((⟨0, 2, 4⟩ : Fermi2) ∈ L ∨ (⟨2, 0, 4⟩ : Fermi2) ∈ L) := by
  refine ⟨_, rfl, c26_fermi2_complete .oblateSymmTop (.inl rfl) _ _ _ ?_ (fun _ _ _ => rfl)
    _ rfl 0 2 4 (by decide) (by norm_num) (.inr (.inr ?_))
    (.inr ⟨⟨1, by decide⟩, ⟨3, by decide⟩, .inl (by decide)⟩)⟩
  · intro i; unfold freq221; split_ifs <;> norm_num
  · simp [freq221]; norm_num

/-! ## C64 -/

/-- C64: in an asymmetric top the three modes of a type-2 resonance are different, and no triple is
reported in two orders. -/
theorem c64_asymmetric_partial (n : Nat) (freq : Vec ℝ) (f3 : T3 ℝ) (L : List Fermi2)
    (hL : fermi2 .asymmTop (degModes .asymmTop n freq) freq f3 = some L) :
    (∀ c ∈ L, c.i ≠ c.j ∧ c.j ≠ c.k ∧ c.i ≠ c.k) ∧
      ∀ c ∈ L, ∀ c' ∈ L, [c.i, c.j, c.k].Perm [c'.i, c'.j, c'.k] → c = c' := by
  obtain ⟨L', h1, -, h2⟩ := c24_iff n freq f3
  obtain rfl : L' = L := Option.some.inj (h1.symm.trans hL)
  refine ⟨?_, ?_⟩
  · rintro ⟨i, j, k⟩ hc
    have := (h2 ..).1 hc
    simp only
    omega
  · rintro ⟨i, j, k⟩ hc ⟨i', j', k'⟩ hc' hp
    have g := (h2 ..).1 hc
    have g' := (h2 ..).1 hc'
    have s1 : ([i, j, k] : List Nat).Pairwise (· > ·) := by
      simp only [List.pairwise_cons, List.mem_cons, List.not_mem_nil, or_false]
      refine ⟨?_, ?_, ?_⟩ <;> grind
    have s2 : ([i', j', k'] : List Nat).Pairwise (· > ·) := by
      simp only [List.pairwise_cons, List.mem_cons, List.not_mem_nil, or_false]
      refine ⟨?_, ?_, ?_⟩ <;> grind
    have := List.Perm.eq_of_pairwise (fun a b _ _ h h' => absurd h (Nat.lt_asymm h')) s1 s2 hp
    simpa using this

/-- The hypothesis of `c64_asymmetric_partial` is met by three modes with ω₀ = ω₁ + ω₂. -/
example : ∃ L, fermi2 .asymmTop (degModes .asymmTop 3 (fun i => if i = 0 then (3000 : ℝ) else 1500))
    (fun i => if i = 0 then (3000 : ℝ) else 1500) (fun _ _ _ => (20 : ℝ)) = some L ∧
    (⟨2, 1, 0⟩ : Fermi2) ∈ L := by
  obtain ⟨L, h1, -, h2⟩ := c24_iff 3 (fun i => if i = 0 then (3000 : ℝ) else 1500)
    (fun _ _ _ => (20 : ℝ))
  refine ⟨L, h1, (h2 ..).2 ⟨by omega, by omega, by omega, by norm_num, .inr ?_⟩⟩
  norm_num

/-- C64 is violated by symmetric tops: with ω₀ = 2ω₁ the "type-2" resonance (1, 0, 1), which names mode 1
twice, is reported. -/
theorem c64_repeated_violated : ∃ L, fermi2 .oblateSymmTop [.i1 0, .i1 1]
    (fun i => if i = 0 then (2000 : ℝ) else 1000) (fun _ _ _ => (20 : ℝ)) = some L ∧
    (⟨1, 0, 1⟩ : Fermi2) ∈ L := by
  refine ⟨_, rfl, ?_⟩
  have hp : Mode.partition [.i1 0, .i1 1] = ([0, 1], [], []) := rfl
  rw [hp]
  simp only [fermi2Sym, List.mem_append]
  refine .inl (.inl (List.mem_flatMap.2 ⟨1, by decide, List.mem_append_left _ (List.mem_flatMap.2
    ⟨0, by decide, List.mem_flatMap.2 ⟨1, by decide, ?_⟩⟩)⟩))
  refine ferm2Test_mem.2 ⟨by norm_num, .inr ?_, rfl⟩
  simp
  norm_num

/-- C64 is violated by symmetric tops: one resonance ω₀ = ω₁ + ω₂ between three non-degenerate modes is
reported in all three orders, so modes 0 and 2 are also taken to be resonant with their sum. -/
theorem c64_orders_violated : ∃ L, fermi2 .oblateSymmTop [.i1 0, .i1 1, .i1 2]
    (fun i => if i = 0 then (3000 : ℝ) else 1500) (fun _ _ _ => (20 : ℝ)) = some L ∧
    (⟨2, 1, 0⟩ : Fermi2) ∈ L ∧ (⟨2, 0, 1⟩ : Fermi2) ∈ L ∧ (⟨1, 0, 2⟩ : Fermi2) ∈ L := by
  refine ⟨_, rfl, ?_⟩
  have hp : Mode.partition [.i1 0, .i1 1, .i1 2] = ([0, 1, 2], [], []) := rfl
  rw [hp]
  simp only [fermi2Sym, List.mem_append]
  refine ⟨?_, ?_, ?_⟩
  · refine .inl (.inl (List.mem_flatMap.2 ⟨2, by decide, List.mem_append_left _ (List.mem_flatMap.2
      ⟨1, by decide, List.mem_flatMap.2 ⟨0, by decide, ?_⟩⟩)⟩))
    exact ferm2Test_mem.2 ⟨by norm_num, .inr (by simp; norm_num), rfl⟩
  · refine .inl (.inl (List.mem_flatMap.2 ⟨2, by decide, List.mem_append_left _ (List.mem_flatMap.2
      ⟨0, by decide, List.mem_flatMap.2 ⟨1, by decide, ?_⟩⟩)⟩))
    exact ferm2Test_mem.2 ⟨by norm_num, .inr (by simp; norm_num), rfl⟩
  · refine .inl (.inl (List.mem_flatMap.2 ⟨1, by decide, List.mem_append_left _ (List.mem_flatMap.2
      ⟨0, by decide, List.mem_flatMap.2 ⟨2, by decide, ?_⟩⟩)⟩))
    exact ferm2Test_mem.2 ⟨by norm_num, .inr (by simp; norm_num), rfl⟩

/-! ## C63 -/

/-- C63, the part that holds: in a symmetric top every pair of different representatives within the
Darling–Dennison criterion is reported in some order, provided neither of them is the first non-degenerate
mode while the other is degenerate. Missing: those pairs are never examined, see `c63_violated`. -/
theorem c63_darling_complete_partial (r : Rotor) (hr : axialTop r) (modes : List Mode) (freq : Vec ℝ)
    (L : List Darling) (hL : darling r modes freq = some L) (i j : Nat) (hij : i ≠ j)
    (hi : isRep modes i) (hj : isRep modes j) (hc : |2 * freq i - 2 * freq j| ≤ 300)
    (hfirst : ∀ p q, (Mode.partition modes).1.head? = some p → (∃ b, Mode.i2 q b ∈ modes) →
      ¬ (i = p ∧ j = q) ∧ ¬ (i = q ∧ j = p)) :
    (⟨i, j⟩ : Darling) ∈ L ∨ (⟨j, i⟩ : Darling) ∈ L := by
  have hc' : |2 * freq j - 2 * freq i| ≤ 300 := by rwa [abs_sub_comm]
  have key := darling_sym_mem r hr modes freq L hL
  have nn : ∀ l : List Nat, i ∈ l → j ∈ l → ∃ a b, b < a ∧ a < l.length ∧
      ((l.getD a 0 = i ∧ l.getD b 0 = j) ∨ (l.getD a 0 = j ∧ l.getD b 0 = i)) := by
    intro l h1 h2
    obtain ⟨a, ha, ea⟩ := List.mem_iff_getElem.1 h1
    obtain ⟨b, hb, eb⟩ := List.mem_iff_getElem.1 h2
    have ga : l.getD a 0 = i := by simp [List.getD_eq_getElem?_getD, ha, ea]
    have gb : l.getD b 0 = j := by simp [List.getD_eq_getElem?_getD, hb, eb]
    rcases Nat.lt_trichotomy a b with h | h | h
    · exact ⟨b, a, h, hb, .inr ⟨gb, ga⟩⟩
    · subst h; exact absurd (ga.symm.trans gb) hij
    · exact ⟨a, b, h, ha, .inl ⟨ga, gb⟩⟩
  have nd : ∀ x y, Mode.i1 x ∈ modes → (∃ b, Mode.i2 y b ∈ modes) →
      |2 * freq x - 2 * freq y| ≤ 300 →
      (∀ p, (Mode.partition modes).1.head? = some p → x ≠ p) → (⟨x, y⟩ : Darling) ∈ L := by
    rintro x y hx ⟨b, hy⟩ hxy hne
    obtain ⟨a, ha, ea⟩ := List.mem_iff_getElem.1 ((part1_mem ..).2 hx)
    have ga : (Mode.partition modes).1.getD a 0 = x := by
      simp [List.getD_eq_getElem?_getD, ha, ea]
    have ha0 : a ≠ 0 := by
      rintro rfl
      refine hne x ?_ rfl
      rw [List.head?_eq_getElem?, List.getElem?_eq_getElem ha, ea]
    refine (key _).2 (.inl ⟨a, by omega, ha, .inr ⟨(y, b), (part2_mem ..).2 hy, ?_, ?_⟩⟩)
    · rw [ga]; exact hxy
    · rw [ga]
  rcases hi with hi | ⟨bi, hi⟩ <;> rcases hj with hj | ⟨bj, hj⟩
  · obtain ⟨a, b, h1, h2, (⟨rfl, rfl⟩ | ⟨rfl, rfl⟩)⟩ :=
      nn _ ((part1_mem ..).2 hi) ((part1_mem ..).2 hj)
    · exact .inl ((key _).2 (.inl ⟨a, by omega, h2, .inl ⟨b, h1, hc, rfl⟩⟩))
    · exact .inr ((key _).2 (.inl ⟨a, by omega, h2, .inl ⟨b, h1, hc', rfl⟩⟩))
  · exact .inl (nd i j hi ⟨_, hj⟩ hc fun p hp h => (hfirst p j hp ⟨_, hj⟩).1 ⟨h, rfl⟩)
  · exact .inr (nd j i hj ⟨_, hi⟩ hc' fun p hp h => (hfirst p i hp ⟨_, hi⟩).2 ⟨rfl, h⟩)
  · obtain ⟨a, b, h1, h2, (⟨rfl, rfl⟩ | ⟨rfl, rfl⟩)⟩ :=
      nn ((Mode.partition modes).2.1.map (·.1))
        (List.mem_map.2 ⟨(i, bi), (part2_mem ..).2 hi, rfl⟩)
        (List.mem_map.2 ⟨(j, bj), (part2_mem ..).2 hj, rfl⟩)
    · exact .inl ((key _).2 (.inr ⟨a, b, h1, h2, hc, rfl⟩))
    · exact .inr ((key _).2 (.inr ⟨a, b, h1, h2, hc', rfl⟩))

/-- The hypotheses of `c63_darling_complete_partial` are met by two degenerate modes 100 apart. -/
example : ∃ L, darling .oblateSymmTop [.i2 0 1, .i2 2 3, .i1 4]
    (fun i => if i < 2 then (1000 : ℝ) else 1100) = some L ∧
    ((⟨0, 2⟩ : Darling) ∈ L ∨ (⟨2, 0⟩ : Darling) ∈ L) := by
  refine ⟨_, rfl, c63_darling_complete_partial .oblateSymmTop (.inl rfl) _ _ _ rfl 0 2 (by decide)
    (.inr ⟨1, by decide⟩) (.inr ⟨3, by decide⟩) (by norm_num [abs_le]) ?_⟩
  intro p q hp hq
  have : p = 4 := (Option.some.inj hp).symm
  omega

/-- C63 is violated: a non-degenerate and a degenerate mode of the same frequency, nothing is reported. -/
theorem c63_violated : darling .oblateSymmTop [.i2 0 1, .i1 2] (fun _ => (1000 : ℝ)) = some [] ∧
    isRep [.i2 0 1, .i1 2] 0 ∧ isRep [.i2 0 1, .i1 2] 2 := by
  refine ⟨rfl, .inr ⟨1, by decide⟩, .inl (by decide)⟩

end Verif
