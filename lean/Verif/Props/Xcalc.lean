import Verif.Lemmas.Xcalc
import Verif.Lemmas.Mode
import Verif.Lemmas.Resonance
import Mathlib.Tactic.NormNum
import Mathlib.Tactic.IntervalCases

/-! Properties of the anharmonic constants of asymmetric tops and of the zero-point constant:
C30 (first half), C31, C32. -/

namespace Verif

variable {α : Type} [Arith α]

/-- C30, asymmetric tops: the matrix of anharmonic constants is exactly symmetric in any arithmetic. -/
theorem c30_asymmetric (nvib : Nat) (f4 : T4 α) (freq : Vec α) (f3 zmat : T3 α) (rotcon : Vec α)
    (modes : List Mode) (f1 : List Fermi1) (f2 : List Fermi2) (i j : Nat) :
    (xcalc nvib f4 freq f3 zmat rotcon modes f1 f2).1 i j =
      (xcalc nvib f4 freq f3 zmat rotcon modes f1 f2).1 j i := by
  show xcalcMat _ _ _ _ _ _ _ i j = xcalcMat _ _ _ _ _ _ _ j i
  unfold xcalcMat
  revert i j
  apply foldl_inv (fun x : Mat α => ∀ i j, x i j = x j i)
  · apply foldl_inv (fun x : Mat α => ∀ i j, x i j = x j i)
    · intro i j; rfl
    · intro x k _ h i j
      unfold Mat.set
      by_cases h1 : i = k <;> by_cases h2 : j = k <;> simp [h1, h2]
      · exact h k j
      · exact h i k
      · exact h i j
  · intro x p _ h
    exact set_sym_inv x p.1 p.2 _ h

/-- C30: fundamentals computed from the rows of a symmetric matrix equal those computed from its
columns. -/
theorem c30_fundamentals (freq : Vec α) (nvib : Nat) (f4 : T4 α) (f3 zmat : T3 α) (rotcon : Vec α)
    (modes : List Mode) (f1 : List Fermi1) (f2 : List Fermi2) :
    makeFunds freq nvib (fun i j => (xcalc nvib f4 freq f3 zmat rotcon modes f1 f2).1 j i) =
      makeFunds freq nvib (xcalc nvib f4 freq f3 zmat rotcon modes f1 f2).1 := by
  congr 1
  funext i j
  exact c30_asymmetric nvib f4 freq f3 zmat rotcon modes f1 f2 j i

/-- C31: the diagonal constants: partial fractions with exactly the listed fraction left out. -/
theorem c31_diagonal (n : Nat) (F4 : T4 ℝ) (w : Vec ℝ) (F3 zeta : T3 ℝ) (B : Vec ℝ)
    (modes : List Mode) (f1 : List Fermi1) (f2 : List Fermi2) (k : Nat) (hk : k < n)
    (hd : ∀ l < n, ¬ Listed f1 f2 k k l → w l ≠ 0 ∧ 2 * w k + w l ≠ 0 ∧ 2 * w k - w l ≠ 0) :
    (xcalc n F4 w F3 zeta B modes f1 f2).1 k k = xkkSpec (Listed f1 f2) n w F3 F4 k := by
  show xcalcMat _ _ _ _ _ _ _ k k = _
  rw [xcalcMat_diag _ _ _ _ _ _ _ _ hk]
  unfold xDiag xkkSpec
  simp only [sq_real, one, lit_real]
  have step : ∀ (v : ℝ), ∀ l ∈ List.range n, (if (makeFermiChecks f1 f2).ifrmchk k k l ≠ 0 then
        v - F3 k k l ^ 2 * (((1.0 : ℚ) : ℝ) / (((8.0 : ℚ) : ℝ) * w l) +
          ((1.0 : ℚ) : ℝ) / (((32.0 : ℚ) : ℝ) * (((2.0 : ℚ) : ℝ) * w k + w l)))
      else v - F3 k k l ^ 2 * (((8.0 : ℚ) : ℝ) * w k ^ 2 - ((3.0 : ℚ) : ℝ) * w l ^ 2) /
          (((16.0 : ℚ) : ℝ) * w l * (((4.0 : ℚ) : ℝ) * w k ^ 2 - w l ^ 2))) =
      v - F3 k k l ^ 2 *
    (1 / (8 * w l) + 1 / (32 * (2 * w k + w l)) - fracUnless (Listed f1 f2 k k l) (2 * w k - w l) / 32) := by
    intro v l hl
    push_cast
    norm_num only
    split
    · next h => rw [frac_pos ((chk_iff _ _ _ _ _).1 h)]; norm_num
    · next h =>
      rw [chk_iff] at h
      obtain ⟨h1, h2, h3⟩ := hd l (List.mem_range.1 hl) h
      rw [frac_neg h, mul_div_assoc, diag_fractions _ _ h1 h2 h3]
  rw [List.foldl_ext _ _ _ step, foldl_sub_rangeX]
  push_cast
  norm_num only
  ring

/-- C31: the off-diagonal constants: partial fractions with exactly the listed fraction left out. The
removed denominators do not occur: no hypothesis is needed for them. -/
theorem c31_offdiagonal (n : Nat) (F4 : T4 ℝ) (w : Vec ℝ) (F3 zeta : T3 ℝ) (B : Vec ℝ)
    (modes : List Mode) (f1 : List Fermi1) (f2 : List Fermi2) (k l : Nat) (hl : l < k) (hk : k < n)
    (hone : ∀ m < n, OneOfThree (Listed f1 f2) k l m)
    (hd : ∀ m < n, ¬ Listed f1 f2 k l m → ¬ Listed f1 f2 l m k → ¬ Listed f1 f2 k m l →
      w k + w l + w m ≠ 0 ∧ w k - w l + w m ≠ 0 ∧ w k + w l - w m ≠ 0 ∧ -w k + w l + w m ≠ 0) :
    (xcalc n F4 w F3 zeta B modes f1 f2).1 k l = xklSpec (Listed f1 f2) n w F3 F4 zeta B k l ∧
    (xcalc n F4 w F3 zeta B modes f1 f2).1 l k = xklSpec (Listed f1 f2) n w F3 F4 zeta B k l := by
  have fac : ∀ m ∈ Finset.range n, -sq (F3 k l m) * xFac w (makeFermiChecks f1 f2).ifrmchk k l m =
      -(F3 k l m ^ 2 / 8 *
      (1 / (w k + w l + w m) + fracUnless (Listed f1 f2 k m l) (w k - w l + w m)
        - fracUnless (Listed f1 f2 k l m) (w k + w l - w m)
        + fracUnless (Listed f1 f2 l m k) (-w k + w l + w m))) := by
    intro m hm
    obtain ⟨o1, o2, o3⟩ := hone m (Finset.mem_range.1 hm)
    unfold xFac
    simp only [sq_real, one, lit_real, dens]
    push_cast
    norm_num only
    split_ifs with c1 c2 c3 c4 c5
    · obtain ⟨c1, rfl⟩ := c1
      rw [chk_iff] at c1
      rw [frac_pos c1, frac_neg (fun h => o3 ⟨c1, h⟩), frac_neg (fun h => o1 ⟨h, c1⟩)]
      have e1 : w k - w m + w m = w k + w m - w m := by ring
      have e2 : 8 * (2 * w m + w k) = (w k + w m + w m) * 8 := by ring
      rw [e1, e2, ← div_div]
      ring
    · obtain ⟨c2, rfl⟩ := c2
      rw [chk_iff] at c2
      rw [frac_pos c2, frac_neg (fun h => o3 ⟨h, c2⟩), frac_neg (fun h => o2 ⟨h, c2⟩)]
      have e1 : -w k + w l + w k = w k + w l - w k := by ring
      have e2 : 8 * (2 * w k + w l) = (w k + w l + w k) * 8 := by ring
      rw [e1, e2, ← div_div]
      ring
    · rw [chk_iff] at c3
      rw [frac_pos c3, frac_neg (fun h => o1 ⟨c3, h⟩), frac_neg (fun h => o2 ⟨c3, h⟩)]; ring
    · rw [chk_iff] at c4
      rw [frac_pos c4, frac_neg (fun h => o1 ⟨h, c4⟩), frac_neg (fun h => o3 ⟨c4, h⟩)]; ring
    · rw [chk_iff] at c5
      rw [frac_pos c5, frac_neg (fun h => o2 ⟨h, c5⟩), frac_neg (fun h => o3 ⟨h, c5⟩)]; ring
    · rw [chk_iff] at c3 c4 c5
      obtain ⟨h1, h2, h3, h4⟩ := hd m (Finset.mem_range.1 hm) c3 c4 c5
      rw [frac_neg c3, frac_neg c4, frac_neg c5, off_fractions _ _ _ h1 h2 h3 h4]; ring
  have key : xOff n F4 w F3 zeta B (makeFermiChecks f1 f2).ifrmchk k l =
      xklSpec (Listed f1 f2) n w F3 F4 zeta B k l := by
    unfold xOff xklSpec
    rw [sumTo_real, Finset.sum_congr rfl fac, Finset.sum_neg_distrib, foldl_sub_rangeX]
    simp only [sq_real, lit_real, Finset.sum_range_succ, Finset.sum_range_zero]
    push_cast
    norm_num only
    ring
  obtain ⟨a, b⟩ := xcalcMat_off n F4 w F3 zeta B (makeFermiChecks f1 f2).ifrmchk k l hl hk
  exact ⟨a.trans key, b.trans key⟩

/-- Two modes in exact resonance `2·1000 = 2000`, listed: the hypotheses hold although `2 w_0 - w_1`
vanishes. -/
example : let w : Vec ℝ := fun i => if i = 0 then 1000 else 2000
    (∀ l < 2, ¬ Listed [⟨0, 1⟩] [] 0 0 l → w l ≠ 0 ∧ 2 * w 0 + w l ≠ 0 ∧ 2 * w 0 - w l ≠ 0) ∧
    (∀ m < 2, OneOfThree (Listed [⟨0, 1⟩] []) 1 0 m) ∧
    (∀ m < 2, ¬ Listed [⟨0, 1⟩] [] 1 0 m → ¬ Listed [⟨0, 1⟩] [] 0 m 1 → ¬ Listed [⟨0, 1⟩] [] 1 m 0 →
      w 1 + w 0 + w m ≠ 0 ∧ w 1 - w 0 + w m ≠ 0 ∧ w 1 + w 0 - w m ≠ 0 ∧ -w 1 + w 0 + w m ≠ 0) := by
  refine ⟨?_, ?_, ?_⟩
  · intro l hl h
    interval_cases l
    · norm_num
    · exact absurd (by decide) h
  · unfold OneOfThree; decide
  · intro m hm h1 h2 h3
    interval_cases m
    · exact absurd (by decide) h2
    · norm_num

/-- C31: only the constants of the modes involved change, in any arithmetic: `x_kl` depends on the lists
of resonances only through the combinations that contain both `k` and `l`. -/
theorem c31_local (n : Nat) (F4 : T4 α) (w : Vec α) (F3 zeta : T3 α) (B : Vec α)
    (modes : List Mode) (f1 g1 : List Fermi1) (f2 g2 : List Fermi2) (k l : Nat) (hk : k < n) (hl : l < n)
    (h : ∀ m, (Listed f1 f2 k l m ↔ Listed g1 g2 k l m) ∧ (Listed f1 f2 l k m ↔ Listed g1 g2 l k m) ∧
      (Listed f1 f2 l m k ↔ Listed g1 g2 l m k) ∧ (Listed f1 f2 k m l ↔ Listed g1 g2 k m l)) :
    (xcalc n F4 w F3 zeta B modes f1 f2).1 k l = (xcalc n F4 w F3 zeta B modes g1 g2).1 k l := by
  have off : ∀ a b, b < a → a < n →
      (∀ m, (Listed f1 f2 a b m ↔ Listed g1 g2 a b m) ∧
        (Listed f1 f2 b m a ↔ Listed g1 g2 b m a) ∧ (Listed f1 f2 a m b ↔ Listed g1 g2 a m b)) →
      xOff n F4 w F3 zeta B (makeFermiChecks f1 f2).ifrmchk a b =
        xOff n F4 w F3 zeta B (makeFermiChecks g1 g2).ifrmchk a b := by
    intro a b _ _ h
    have : xFac w (makeFermiChecks f1 f2).ifrmchk a b = xFac w (makeFermiChecks g1 g2).ifrmchk a b := by
      funext m
      obtain ⟨h1, h2, h3⟩ := h m
      rw [← chk_iff, ← chk_iff] at h1 h2 h3
      simp only [xFac, h1, h2, h3]
    unfold xOff
    rw [this]
  show xcalcMat _ _ _ _ _ _ _ k l = xcalcMat _ _ _ _ _ _ _ k l
  rcases lt_trichotomy k l with c | rfl | c
  · rw [(xcalcMat_off _ _ _ _ _ _ _ l k c hl).2, (xcalcMat_off _ _ _ _ _ _ _ l k c hl).2]
    exact off l k c hl fun m => ⟨(h m).2.1, (h m).2.2.2, (h m).2.2.1⟩
  · rw [xcalcMat_diag _ _ _ _ _ _ _ k hk, xcalcMat_diag _ _ _ _ _ _ _ k hk]
    unfold xDiag
    have e : ∀ l, ((makeFermiChecks f1 f2).ifrmchk k k l ≠ 0 ↔ (makeFermiChecks g1 g2).ifrmchk k k l ≠ 0) := by
      intro l; rw [chk_iff, chk_iff]; exact (h l).1
    simp only [e]
  · rw [(xcalcMat_off _ _ _ _ _ _ _ k l c hk).1, (xcalcMat_off _ _ _ _ _ _ _ k l c hk).1]
    exact off k l c hk fun m => ⟨(h m).1, (h m).2.2.1, (h m).2.2.2⟩

/-- C31: the hypothesis "at most one combination of the same three modes is listed" holds for the lists
the program detects for an asymmetric top. -/
theorem c31_detected (n : Nat) (w : Vec α) (F3 : T3 α) (freq : Vec α) (f1 : List Fermi1)
    (f2 : List Fermi2) (h2 : fermi2 .asymmTop (degModes .asymmTop n freq) w F3 = some f2)
    (k l m : Nat) (hkl : k ≠ l) : OneOfThree (Listed f1 f2) k l m := by
  have e : f2 = fermi2Asym (List.range n) w F3 := by
    simp only [fermi2, partition_asym .asymmTop rfl] at h2
    exact (Option.some.inj h2).symm
  have hmem : ∀ a b c, (⟨a, b, c⟩ : Fermi2) ∈ f2 → c < b ∧ b < a := by
    intro a b c h
    rw [e] at h
    simp only [fermi2Asym, List.length_range, List.mem_flatMap, List.mem_range, List.mem_range'_1] at h
    obtain ⟨ii, hii, jj, hjj, kk, hkk, h⟩ := h
    unfold ferm2Test at h
    dsimp only at h
    split at h
    · simp only [List.mem_singleton, Fermi2.mk.injEq] at h
      obtain ⟨rfl, rfl, rfl⟩ := h
      rw [getD_range (show ii < n by omega), getD_range (show jj < n by omega),
        getD_range (show kk < n by omega)]
      omega
    · simp at h
  have hL : ∀ a b c, Listed f1 f2 a b c → a = b ∨ (c < a ∧ c < b ∧ a ≠ b) := by
    rintro a b c (⟨h, _⟩ | h | h)
    · exact .inl h
    · have := hmem _ _ _ h; right; omega
    · have := hmem _ _ _ h; right; omega
  refine ⟨?_, ?_, ?_⟩ <;> rintro ⟨a, b⟩ <;> have := hL _ _ _ a <;> have := hL _ _ _ b <;> omega

example (freq w : Vec ℝ) (F3 : T3 ℝ) : ∃ f2, fermi2 .asymmTop (degModes .asymmTop 4 freq) w F3 = some f2 :=
  ⟨_, rfl⟩

theorem list_sum_flatMap_map {β γ : Type} (l : List β) (g : β → List γ) (f : γ → ℝ) :
    ((l.flatMap g).map f).sum = (l.map fun a => ((g a).map f).sum).sum := by
  induction l with
  | nil => rfl
  | cons a l ih => simp [ih]

/-- C32, the part that holds: if no listed resonance couples three non-degenerate modes, the zero-point
constant is the textbook sum, in partial fractions. Missing: listed resonances among them, for which the
code is wrong (the theorems below). -/
theorem c32_partial (n : Nat) (F4 : T4 ℝ) (w : Vec ℝ) (F3 zeta : T3 ℝ) (B : Vec ℝ) (modes : List Mode)
    (f1 : List Fermi1) (f2 : List Fermi2)
    (hn : ∀ a ∈ nonDeg modes, ∀ b ∈ nonDeg modes, ∀ c ∈ nonDeg modes, ¬ Listed f1 f2 a b c)
    (hd : E0Regular (nonDeg modes) w) :
    (xcalc n F4 w F3 zeta B modes f1 f2).2 = e0Spec (Listed f1 f2) (nonDeg modes) w F3 F4 := by
  obtain ⟨hd2, hd3⟩ := hd
  show makeE0 _ _ _ _ _ _ = _
  have hp : (Mode.partition modes).1 = nonDeg modes := by rw [partition_eq]; rfl
  unfold makeE0 e0Spec
  rw [hp]
  simp only [sumL_real, foldl_sub_real, list_sum_flatMap_map, List.map_map, Function.comp_def]
  have t2 : ∀ a ∈ nonDeg modes, ∀ b ∈ nonDeg modes, a ≠ b →
      e0kkl w F3 (makeFermiChecks f1 f2).ifrm1 a b =
        e0kklSpec (Listed f1 f2 a a b) (F3 a a b) (w a) (w b) := by
    intro a ha b hb hab
    obtain ⟨h1, h2⟩ := hd2 a ha b hb hab
    have hl := hn a ha a ha b hb
    unfold e0kkl e0kklSpec
    rw [if_neg, frac_neg hl]
    · simp only [sq_real, lit_real]
      push_cast
      norm_num only
      rw [mul_div_assoc, e0kkl_fractions _ _ h1 h2]
      ring
    · intro h
      obtain ⟨l₁, l₂, rfl, -⟩ := (c27_type1 f1 f2 a b).1 h
      exact hl (.inl ⟨rfl, by simp⟩)
  have t3 : ∀ a ∈ nonDeg modes, ∀ b ∈ nonDeg modes, ∀ c ∈ nonDeg modes, b < a → c < b →
      e0klm w F3 (makeFermiChecks f1 f2).ifrmchk a b c =
        -e0klmSpec (Listed f1 f2 b c a) (Listed f1 f2 a c b) (Listed f1 f2 a b c)
          (F3 a b c) (w a) (w b) (w c) := by
    intro a ha b hb c hc hab hbc
    obtain ⟨h1, h2, h3, h4⟩ := hd3 a ha b hb c hc hab hbc
    unfold e0klm e0klmSpec
    rw [frac_neg (hn b hb c hc a ha), frac_neg (hn a ha c hc b hb), frac_neg (hn a ha b hb c hc)]
    dsimp only
    rw [if_neg (fun h => hn a ha b hb c hc ((chk_iff _ _ _ _ _).1 h)),
      if_neg (fun h => hn b hb c hc a ha ((chk_iff _ _ _ _ _).1 h)),
      if_neg (fun h => hn a ha c hc b hb ((chk_iff _ _ _ _ _).1 h))]
    simp only [sq_real, lit_real]
    push_cast
    norm_num only
    rw [mul_div_assoc, e0_fractions _ _ _ h1 h2 h3 h4]
    ring
  have s2 : ((nonDeg modes).map fun a => (((nonDeg modes).filter fun b => a ≠ b).map fun b =>
        e0kkl w F3 (makeFermiChecks f1 f2).ifrm1 a b).sum).sum =
      ((nonDeg modes).map fun a => (((nonDeg modes).filter fun b => a ≠ b).map fun b =>
        e0kklSpec (Listed f1 f2 a a b) (F3 a a b) (w a) (w b)).sum).sum := by
    congr 1
    refine List.map_congr_left fun a ha => ?_
    congr 1
    refine List.map_congr_left fun b hb => ?_
    rw [List.mem_filter] at hb
    exact t2 a ha b hb.1 (by simpa using hb.2)
  have s3 : ((nonDeg modes).map fun a => (((nonDeg modes).filter fun b => a > b).map fun b =>
        (((nonDeg modes).filter fun c => b > c).map fun c =>
          e0klm w F3 (makeFermiChecks f1 f2).ifrmchk a b c).sum).sum).sum =
      -((nonDeg modes).map fun a => (((nonDeg modes).filter fun b => b < a).map fun b =>
        (((nonDeg modes).filter fun c => c < b).map fun c =>
        e0klmSpec (Listed f1 f2 b c a) (Listed f1 f2 a c b) (Listed f1 f2 a b c)
          (F3 a b c) (w a) (w b) (w c)).sum).sum).sum := by
    rw [List.sum_neg, List.map_map]
    congr 1
    refine List.map_congr_left fun a ha => ?_
    simp only [Function.comp_def]
    rw [List.sum_neg, List.map_map]
    congr 1
    refine List.map_congr_left fun b hb => ?_
    simp only [Function.comp_def]
    rw [List.sum_neg, List.map_map]
    congr 1
    refine List.map_congr_left fun c hc => ?_
    rw [List.mem_filter] at hb hc
    exact t3 a ha b hb.1 c hc.1 (by simpa using hb.2) (by simpa using hc.2)
  have s1 : ((nonDeg modes).map fun k => -(Arith.lit 7.0 : ℝ) * sq (F3 k k k) / (Arith.lit 576.0 * w k)).sum =
      -(7 / 576 * ((nonDeg modes).map fun k => F3 k k k ^ 2 / w k).sum) := by
    rw [← List.sum_map_mul_left, List.sum_neg, List.map_map]
    congr 1
    refine List.map_congr_left fun a ha => ?_
    simp only [Function.comp_def, sq_real, lit_real]
    push_cast
    norm_num only
    rw [mul_div_mul_comm]
    ring
  rw [s2, s3, s1]
  simp only [lit_real]
  push_cast
  norm_num only
  ring

example : E0Regular (nonDeg [.i1 0, .i1 1, .i1 2]) (fun i => 1000 + 100 * i) := by
  constructor <;> simp [nonDeg] <;> norm_num

/-- C32 is violated by a listed type-1 resonance: the fraction that should stay has the wrong sign. -/
theorem c32_two_mode_violated : ∃ (n : Nat) (F4 : T4 ℝ) (w : Vec ℝ) (F3 zeta : T3 ℝ) (B : Vec ℝ)
    (modes : List Mode) (f1 : List Fermi1), E0Regular (nonDeg modes) w ∧
    (xcalc n F4 w F3 zeta B modes f1 []).2 ≠ e0Spec (Listed f1 []) (nonDeg modes) w F3 F4 := by
  refine ⟨2, fun _ _ _ _ => 0, fun i => if i = 0 then 1000 else 1900,
    fun a b c => if a = 0 ∧ b = 0 ∧ c = 1 then 100 else 0, fun _ _ _ => 0, fun _ => 0, [.i1 0, .i1 1],
    [⟨0, 1⟩], ?_, ?_⟩
  · constructor <;> simp [nonDeg] <;> norm_num
  · simp [xcalc, makeE0, partition_eq, e0Spec, e0kkl, e0kklSpec, sumL_real, sq_real, nonDeg, makeFermiChecks, fermiStep1,
      HMap.insert, HMap.empty, fracUnless, Listed, lit_real]
    norm_num

/-- C32 is violated by a listed type-2 resonance. -/
theorem c32_three_mode_violated : ∃ (n : Nat) (F4 : T4 ℝ) (w : Vec ℝ) (F3 zeta : T3 ℝ) (B : Vec ℝ)
    (modes : List Mode) (f2 : List Fermi2), E0Regular (nonDeg modes) w ∧
    (xcalc n F4 w F3 zeta B modes [] f2).2 ≠ e0Spec (Listed [] f2) (nonDeg modes) w F3 F4 := by
  refine ⟨3, fun _ _ _ _ => 0, fun i => if i = 0 then 3000 else if i = 1 then 1900 else 1000,
    fun a b c => if a = 2 ∧ b = 1 ∧ c = 0 then 100 else 0, fun _ _ _ => 0, fun _ => 0,
    [.i1 0, .i1 1, .i1 2], [⟨2, 1, 0⟩], ?_, ?_⟩
  · constructor <;> simp [nonDeg] <;> norm_num
  · simp [xcalc, makeE0, partition_eq, e0Spec, e0kkl, e0kklSpec, e0klm, e0klmSpec, sumL_real, sq_real, nonDeg, one,
      makeFermiChecks, fermiStep2, chkSet, HMap.insert, HMap.empty, fracUnless, Listed, lit_real]
    norm_num

/-- C32 is violated when a mode has two listed overtone resonances: the table the code consults keeps
only the last one, and the resonant denominator of the first stays in the result. -/
theorem c32_overwritten_violated : ∃ (n : Nat) (F4 : T4 ℝ) (w : Vec ℝ) (F3 zeta : T3 ℝ) (B : Vec ℝ)
    (modes : List Mode) (f1 : List Fermi1), E0Regular (nonDeg modes) w ∧
    F3 0 0 2 = 0 ∧
    (xcalc n F4 w F3 zeta B modes f1 []).2 = 3 * F3 0 0 1 ^ 2 / 128 * (1 / (2 * w 0 - w 1) - 1 / (2 * w 0 + w 1)) ∧
    (xcalc n F4 w F3 zeta B modes f1 []).2 ≠ e0Spec (Listed f1 []) (nonDeg modes) w F3 F4 := by
  refine ⟨3, fun _ _ _ _ => 0, fun i => if i = 0 then 1000 else if i = 1 then 1999 else 1900,
    fun a b c => if a = 0 ∧ b = 0 ∧ c = 1 then 100 else 0, fun _ _ _ => 0, fun _ => 0,
    [.i1 0, .i1 1, .i1 2], [⟨0, 1⟩, ⟨0, 2⟩], ?_, ?_, ?_, ?_⟩
  · constructor <;> simp [nonDeg] <;> norm_num
  · simp
  · simp [xcalc, makeE0, partition_eq, e0kkl, e0klm, sumL_real, sq_real, one,
      makeFermiChecks, fermiStep1, chkSet, HMap.insert, HMap.empty, lit_real]
    norm_num
  · simp [xcalc, makeE0, partition_eq, e0Spec, e0kkl, e0kklSpec, e0klm, e0klmSpec, sumL_real, sq_real, nonDeg, one,
      makeFermiChecks, fermiStep1, chkSet, HMap.insert, HMap.empty, fracUnless, Listed, lit_real]
    norm_num

end Verif
