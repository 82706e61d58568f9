import Verif.Lemmas.RoundingX
import Verif.Props.Xcalc
import Verif.Props.Perturb
import Mathlib.Tactic.IntervalCases

/-! Rounding errors of the anharmonic constants and fundamentals of asymmetric tops: C107. -/

namespace Verif

open Finset Osc

variable {u κ : ℝ} {rnd : ℝ → ℝ}

/-- C107: rounding to a nearest number with `p ≥ 1` binary digits has a relative error of at most `2⁻ᵖ`. -/
theorem c107_nearest (p : Nat) (hp : 1 ≤ p) : Rounds (2 ^ (-p : ℤ)) (nearest p) := by
  refine ⟨by positivity, ?_, fun x => ?_⟩
  · exact zpow_lt_one_of_neg₀ (by norm_num) (by omega)
  · unfold nearest
    dsimp only
    by_cases hx : x = 0
    · simp [hx]
    set e : ℤ := Int.log 2 |x| - p + 1 with he
    have h2 : (0 : ℝ) < 2 ^ e := by positivity
    have e1 : (round (x / 2 ^ e) : ℝ) * 2 ^ e - x = -((x / 2 ^ e - round (x / 2 ^ e)) * 2 ^ e) := by
      field_simp
      ring
    have h3 := abs_sub_round (x / 2 ^ e)
    have h4 : (2 : ℝ) ^ Int.log 2 |x| ≤ |x| := by
      simpa using Int.zpow_log_le_self (b := 2) (by norm_num) (abs_pos.2 hx)
    have h5 : (1 / 2 : ℝ) * 2 ^ e = 2 ^ (-p : ℤ) * 2 ^ Int.log 2 |x| := by
      rw [← zpow_add₀ (by norm_num), show (1 / 2 : ℝ) = 2 ^ (-1 : ℤ) by norm_num, ← zpow_add₀ (by norm_num)]
      congr 1
      omega
    rw [e1, abs_neg, abs_mul, abs_of_pos h2]
    calc _ ≤ 1 / 2 * (2 : ℝ) ^ e := mul_le_mul_of_nonneg_right h3 h2.le
      _ = _ := h5
      _ ≤ _ := mul_le_mul_of_nonneg_left h4 (by positivity)

/-- C107, anharmonic constants: computed with rounded arithmetic, they differ from those of exact second-order
perturbation theory for the same frequencies and constants by at most `growth - 1` times the sum of the sizes of the
terms, if no frequency combination other than the listed resonances is closer to zero than the `κ`-th part of the sum
of the frequencies. -/
theorem c107_constants (hr : Rounds u rnd) (h1 : 1 ≤ κ) (hκ : κ * ((1 / (1 - u)) ^ 4 - 1) < 1) (n : Nat)
    (F4 : T4 (Fl rnd)) (w : Vec (Fl rnd)) (F3 zeta : T3 (Fl rnd)) (B : Vec (Fl rnd)) (modes : List Mode)
    (f1 : List Fermi1) (f2 : List Fermi2)
    (hone : ∀ k l m, k < n → l < n → m < n → k ≠ l → OneOfThree (Listed f1 f2) k l m)
    (hp : ∀ i < n, 0 < (w i).val) (ap : ApartBy κ n (Listed f1 f2) fun i => (w i).val) :
    let x := (xcalc n F4 w F3 zeta B modes f1 f2).1
    let W : Nat → ℝ := fun i => (w i).val
    let φ : Nat → Nat → Nat → ℝ := fun a b c => (F3 a b c).val
    let ψ : Nat → Nat → Nat → Nat → ℝ := fun a b c d => (F4 a b c d).val
    let ζ : Nat → Nat → Nat → ℝ := fun a b c => (zeta a b c).val
    let A : Nat → ℝ := fun a => (B a).val
    (∀ k < n, |(x k k).val - xkkSpec (Listed f1 f2) n W φ ψ k| ≤
      (growth u κ (n + 11) 1 - 1) * diagSize (Listed f1 f2) n W φ ψ k) ∧
    ∀ k l, l < k → k < n → x l k = x k l ∧ |(x k l).val - xklSpec (Listed f1 f2) n W φ ψ ζ A k l| ≤
      (growth u κ (n + 16) 3 - 1) * offSize (Listed f1 f2) n W φ ψ ζ A k l := by
  intro x W φ ψ ζ A
  have c : RoundCtx u κ rnd := ⟨hr, h1, hκ⟩
  have ne : ∀ k l m, k < n → l < n → m < n → ¬ Listed f1 f2 k l m → W k + W l - W m ≠ 0 :=
    fun k l m hk hl hm h => apartBy_ne c hp hk hl hm (ap k l m hk hl hm h)
  refine ⟨fun k hk => ?_, fun k l hl hk => ⟨c30_asymmetric n F4 w F3 zeta B modes f1 f2 l k, ?_⟩⟩
  · have h := (acc_xDiag c hp ap (chk_iff f1 f2) F4 F3 hk).1
    have e := c31_diagonal n ψ W φ ζ A modes f1 f2 k hk fun l hl hL => ⟨(hp l hl).ne', by
      have := hp k hk; have := hp l hl; positivity, by
      have := ne k k l hk hk hl hL
      rwa [two_mul]⟩
    rw [← e]
    show |Fl.val (xcalcMat _ _ _ _ _ _ _ k k) - xcalcMat _ _ _ _ _ _ _ k k| ≤ _
    rw [xcalcMat_diag _ _ _ _ _ _ _ _ hk, xcalcMat_diag _ _ _ _ _ _ _ _ hk]
    exact h
  · have hl' : l < n := hl.trans hk
    have h := (acc_xOff c hp ap (chk_iff f1 f2) hone F4 F3 zeta B hk hl' (by omega)).1
    have e := (c31_offdiagonal n ψ W φ ζ A modes f1 f2 k l hl hk (fun m hm => hone k l m hk hl' hm (by omega))
      fun m hm n1 n2 n3 => ⟨by
        have := hp k hk; have := hp l hl'; have := hp m hm; positivity, by
        have := ne k m l hk hm hl' n3
        intro h; exact this (by linarith), ne k l m hk hl' hm n1, by
        have := ne l m k hl' hm hk n2
        intro h; exact this (by linarith)⟩).1
    rw [← e]
    show |Fl.val (xcalcMat _ _ _ _ _ _ _ k l) - xcalcMat _ _ _ _ _ _ _ k l| ≤ _
    rw [(xcalcMat_off _ _ _ _ _ _ _ k l hl hk).1, (xcalcMat_off _ _ _ _ _ _ _ k l hl hk).1]
    exact h

/-- C107, fundamentals: computed with rounded arithmetic, they differ from `w_i + 2 x_ii + ½ Σ_j x_ij` with the exact
anharmonic constants by at most `growth - 1` times the sum of the sizes of the terms. -/
theorem c107_fundamentals (hr : Rounds u rnd) (h1 : 1 ≤ κ) (hκ : κ * ((1 / (1 - u)) ^ 4 - 1) < 1) (n : Nat)
    (F4 : T4 (Fl rnd)) (w : Vec (Fl rnd)) (F3 zeta : T3 (Fl rnd)) (B : Vec (Fl rnd)) (modes : List Mode)
    (f1 : List Fermi1) (f2 : List Fermi2)
    (hone : ∀ k l m, k < n → l < n → m < n → k ≠ l → OneOfThree (Listed f1 f2) k l m)
    (hp : ∀ i < n, 0 < (w i).val) (ap : ApartBy κ n (Listed f1 f2) fun i => (w i).val) :
    let W : Nat → ℝ := fun i => (w i).val
    let φ : Nat → Nat → Nat → ℝ := fun a b c => (F3 a b c).val
    let ψ : Nat → Nat → Nat → Nat → ℝ := fun a b c d => (F4 a b c d).val
    let ζ : Nat → Nat → Nat → ℝ := fun a b c => (zeta a b c).val
    let A : Nat → ℝ := fun a => (B a).val
    let X := xSpec (Listed f1 f2) n W φ ψ ζ A
    ∀ i < n, ∃ v, (makeFunds w n (xcalc n F4 w F3 zeta B modes f1 f2).1)[i]? = some v ∧
      |v.val - (W i + 2 * X i i + 1 / 2 * ∑ j ∈ (range n).erase i, X i j)| ≤
        (growth u κ (2 * n + 18) 3 - 1) * fundSize (Listed f1 f2) n W φ ψ ζ A i := by
  intro W φ ψ ζ A X i hi
  have c : RoundCtx u κ rnd := ⟨hr, h1, hκ⟩
  have ne : ∀ k l m, k < n → l < n → m < n → ¬ Listed f1 f2 k l m → W k + W l - W m ≠ 0 :=
    fun k l m hk hl hm h => apartBy_ne c hp hk hl hm (ap k l m hk hl hm h)
  obtain ⟨v, hv, h, -⟩ := acc_fund c hp ap (chk_iff f1 f2) hone F4 F3 zeta B hi
  refine ⟨v, hv, ?_⟩
  have hD : ∀ k < n, xcalcMat n ψ W φ ζ A (makeFermiChecks f1 f2).ifrmchk k k = X k k := fun k hk => by
    show _ = xSpec _ _ _ _ _ _ _ _ _
    rw [xSpec, if_pos rfl]
    exact c31_diagonal n ψ W φ ζ A modes f1 f2 k hk fun l hl hL => ⟨(hp l hl).ne', by
      have := hp k hk; have := hp l hl; positivity, by
      have := ne k k l hk hk hl hL
      rwa [two_mul]⟩
  have hO : ∀ k l, l < k → k < n → xcalcMat n ψ W φ ζ A (makeFermiChecks f1 f2).ifrmchk k l = X k l ∧
      xcalcMat n ψ W φ ζ A (makeFermiChecks f1 f2).ifrmchk l k = X l k := fun k l hl hk => by
    have hl' : l < n := hl.trans hk
    have e := c31_offdiagonal n ψ W φ ζ A modes f1 f2 k l hl hk (fun m hm => hone k l m hk hl' hm (by omega))
      fun m hm n1 n2 n3 => ⟨by
        have := hp k hk; have := hp l hl'; have := hp m hm; positivity, by
        have := ne k m l hk hm hl' n3
        intro h; exact this (by linarith), ne k l m hk hl' hm n1, by
        have := ne l m k hl' hm hk n2
        intro h; exact this (by linarith)⟩
    show _ = xSpec _ _ _ _ _ _ _ _ _ ∧ _ = xSpec _ _ _ _ _ _ _ _ _
    rw [xSpec, xSpec, if_neg (by omega), if_neg (by omega), max_eq_left hl.le, min_eq_right hl.le, max_eq_right hl.le,
      min_eq_left hl.le]
    exact e
  rw [hD i hi, sum_congr rfl fun j hj => show _ = X i j by
    obtain ⟨hji, hj⟩ := mem_erase.1 hj
    have hj := mem_range.1 hj
    rcases lt_or_gt_of_ne hji with h | h
    · exact (hO i j h hi).1
    · exact (hO j i h hj).2] at h
  exact h

/-- Double precision, two modes in exact resonance `2 · 1000 = 2000`, listed: the hypotheses of `c107_constants` and
`c107_fundamentals` are met with `κ = 5` although `2 w_0 - w_1` vanishes. -/
example : let w : Vec (Fl (nearest 53)) := fun i => ⟨if i = 0 then 1000 else 2000⟩
    Rounds (2 ^ (-(53 : ℕ) : ℤ)) (nearest 53) ∧ (1 : ℝ) ≤ 5 ∧ 5 * ((1 / (1 - 2 ^ (-(53 : ℕ) : ℤ))) ^ 4 - 1) < (1 : ℝ) ∧
    (∀ k l m, k < 2 → l < 2 → m < 2 → k ≠ l → OneOfThree (Listed [⟨0, 1⟩] []) k l m) ∧ (∀ i < 2, 0 < (w i).val) ∧
    ApartBy 5 2 (Listed [⟨0, 1⟩] []) fun i => (w i).val := by
  intro w
  refine ⟨c107_nearest 53 (by norm_num), by norm_num, by norm_num, ?_, ?_, ?_⟩
  · intro k l m hk hl hm
    unfold OneOfThree
    interval_cases k <;> interval_cases l <;> interval_cases m <;> decide
  · intro i hi
    simp only [w]
    split <;> norm_num
  · intro k l m hk hl hm h
    simp only [w]
    interval_cases k <;> interval_cases l <;> interval_cases m <;>
      first
      | exact absurd (by decide) h
      | norm_num [abs_of_pos]

/-- C107: how large the factor is: with `s = (e + 8 d κ) u ≤ ½`, `d ≥ 1`, it is at most `1 + 2 s`. -/
theorem c107_growth (hu : 0 ≤ u) (h1 : 1 ≤ κ) (e d : Nat) (hd : 1 ≤ d) (hs : ((e : ℝ) + 8 * d * κ) * u ≤ 1 / 2) :
    κ * ((1 / (1 - u)) ^ 4 - 1) < 1 ∧ growth u κ e d - 1 ≤ 2 * (((e : ℝ) + 8 * d * κ) * u) := by
  have hdR : (1 : ℝ) ≤ d := by exact_mod_cast hd
  have he : (0 : ℝ) ≤ e * u := by positivity
  have hk : 8 * (κ * u) ≤ 8 * d * κ * u := by
    have : 0 ≤ κ * u := by positivity
    nlinarith
  have hκu : κ * u ≤ 1 / 16 := by nlinarith
  have hu' : u ≤ 1 / 16 := by nlinarith
  have h4 : (1 / (1 - u)) ^ 4 - 1 ≤ 8 * u := by
    have b : 1 - 4 * u ≤ (1 - u) ^ 4 := by
      have := one_add_mul_le_pow (show (-2 : ℝ) ≤ -u by linarith) 4
      push_cast at this
      linarith [show (1 - u) ^ 4 = (1 + -u) ^ 4 by ring]
    rw [div_pow, one_pow, div_sub_one (by nlinarith), div_le_iff₀ (by nlinarith)]
    nlinarith
  have h4' : 0 ≤ (1 / (1 - u)) ^ 4 - 1 := sub_nonneg.2 (one_le_pow₀ (by
    rw [le_div_iff₀ (by linarith)]; linarith))
  set η := κ * ((1 / (1 - u)) ^ 4 - 1) with hη
  have hη8 : η ≤ 8 * (κ * u) := by
    rw [hη]
    nlinarith
  have hη0 : 0 ≤ η := by rw [hη]; positivity
  refine ⟨by linarith, ?_⟩
  have be : 1 - e * u ≤ (1 - u) ^ e := by
    have := one_add_mul_le_pow (show (-2 : ℝ) ≤ -u by linarith) e
    linarith [show (1 - u) ^ e = (1 + -u) ^ e by ring]
  have bd : 1 - d * η ≤ (1 - η) ^ d := by
    have := one_add_mul_le_pow (show (-2 : ℝ) ≤ -η by linarith) d
    linarith [show (1 - η) ^ d = (1 + -η) ^ d by ring]
  have hdη : d * η ≤ 8 * d * κ * u := by nlinarith
  set s := ((e : ℝ) + 8 * d * κ) * u with hsdef
  have hsum : e * u + d * η ≤ s := by rw [hsdef]; linarith
  have hs0 : 0 ≤ s := by
    have : 0 ≤ d * η := by positivity
    linarith
  have hd0 : 0 ≤ d * η := by positivity
  have prod : 1 - s ≤ (1 - u) ^ e * (1 - η) ^ d := by
    have := mul_le_mul be bd (by linarith) (pow_nonneg (by linarith) e)
    nlinarith
  have e1 : growth u κ e d = 1 / ((1 - u) ^ e * (1 - η) ^ d) := by
    unfold growth
    rw [← hη, div_pow, div_pow, one_pow, one_pow, div_mul_div_comm, one_mul]
  rw [e1]
  have : 1 / ((1 - u) ^ e * (1 - η) ^ d) ≤ 1 / (1 - s) := one_div_le_one_div_of_le (by linarith) prod
  have : 1 / (1 - s) ≤ 1 + 2 * s := by
    rw [div_le_iff₀ (by linarith)]
    nlinarith
  linarith

/-- C107, energies: let there be no Fermi resonances. Then the fundamental computed with rounded arithmetic for mode `i`
differs from the difference between the energies of the state with one quantum in mode `i` and of the ground state, to
second order of perturbation theory for the vibrational Hamiltonian, by at most `(4 N + 36 + 48 κ) u` times the sum of
the sizes of the terms of the formula. -/
theorem c107_energy (hr : Rounds u rnd) (h1 : 1 ≤ κ) (N : Nat) (hu : (2 * (N : ℝ) + 18 + 24 * κ) * u ≤ 1 / 2)
    (F4 : T4 (Fl rnd)) (w : Vec (Fl rnd)) (F3 zeta : T3 (Fl rnd)) (B : Vec (Fl rnd)) (modes : List Mode)
    (hp : ∀ i < N, 0 < (w i).val) (ap : ApartBy κ N (fun _ _ _ => False) fun i => (w i).val)
    (h3 : Symm3 N fun a b c => (F3 a b c).val) (h4 : Symm4 N fun a b c d => (F4 a b c d).val)
    (hz : ∀ a k l, k < N → l < N → (zeta k l a).val = -(zeta l k a).val) :
    let W : Nat → ℝ := fun i => (w i).val
    let φ : Nat → Nat → Nat → ℝ := fun a b c => (F3 a b c).val
    let ψ : Nat → Nat → Nat → Nat → ℝ := fun a b c d => (F4 a b c d).val
    let ζ : Nat → Nat → Nat → ℝ := fun a b c => (zeta a b c).val
    let A : Nat → ℝ := fun a => (B a).val
    ∀ G0 G1 G2, VibEnergy W φ ψ ζ A (fun _ : Fin N => 0) G0 G1 G2 →
    ∀ i < N, ∀ E0 E1 E2, VibEnergy W φ ψ ζ A (fun j : Fin N => if (j : Nat) = i then 1 else 0) E0 E1 E2 →
    ∃ v, (makeFunds w N (xcalc N F4 w F3 zeta B modes [] []).1)[i]? = some v ∧
      |v.val - (E0 + E1 + E2 - (G0 + G1 + G2))| ≤
        (4 * N + 36 + 48 * κ) * u * fundSize (fun _ _ _ => False) N W φ ψ ζ A i := by
  intro W φ ψ ζ A G0 G1 G2 hG i hi E0 E1 E2 hE
  have hL : Listed [] [] = fun _ _ _ => False := by
    funext a b c
    simp [Listed]
  obtain ⟨g1, g2⟩ := c107_growth hr.1 h1 (2 * N + 18) 3 (by norm_num) (by push_cast; linarith)
  have c : RoundCtx u κ rnd := ⟨hr, h1, g1⟩
  have hw : NoResonance N W := fun a b d ha hb hd => ⟨by
    have := hp a ha; have := hp b hb; have := hp d hd; positivity, apartBy_ne c hp ha hb hd (ap a b d ha hb hd id)⟩
  obtain ⟨v, hv, h⟩ := c107_fundamentals hr h1 g1 N F4 w F3 zeta B modes [] [] (fun k l m _ _ _ _ => by
    rw [hL]; simp [OneOfThree]) hp (by rw [hL]; exact ap) i hi
  rw [hL] at h
  refine ⟨v, hv, ?_⟩
  have xs := xSpec_symm (fun _ _ _ => False) N W φ ψ ζ A
  obtain ⟨b0, b1, b2⟩ := vib_formula (n := fun _ => 0) h3 h4 hz hp hw hG
  obtain ⟨a0, a1, a2⟩ := vib_formula (n := quanta i 1) h3 h4 hz hp hw
    (show VibEnergy W φ ψ ζ A (fun j : Fin N => quanta i 1 j) E0 E1 E2 from hE)
  have e : E0 + E1 + E2 - (G0 + G1 + G2) = W i + 2 * xSpec (fun _ _ _ => False) N W φ ψ ζ A i i +
      1 / 2 * ∑ j ∈ (range N).erase i, xSpec (fun _ _ _ => False) N W φ ψ ζ A i j := by
    rw [← single_sum _ xs W N i hi, a0, a1, a2, b0, b1, b2]
    simp only [quanta, ite_self]
    ring
  rw [e]
  refine h.trans (mul_le_mul_of_nonneg_right ?_ ?_)
  · push_cast at g2
    linarith
  · have h2 := (acc_fund c hp (R := fun _ _ _ => False) ap (chk := fun _ _ _ => 0) (fun _ _ _ => by simp)
      (fun k l m _ _ _ _ => by simp [OneOfThree]) F4 F3 zeta B hi)
    obtain ⟨v, -, -, h2⟩ := h2
    exact (abs_nonneg _).trans h2

/-- C107, run: let the run of an asymmetric top be carried out in rounded arithmetic, with the computed frequencies, force
constants and Coriolis constants `w`, `F₃`, `F₄`, `ζ`. The fundamentals reported differ from those of exact second-order
perturbation theory for these by at most `(4 n + 36 + 48 κ) u` times the sum of the sizes of the terms, `n` the number
of modes. -/
theorem c107_run {ι : Type} (hr : Rounds u rnd) (h1 : 1 ≤ κ) (s : SpectroIn (Fl rnd)) (o : Oracles (Fl rnd) ι)
    (fc2 : Mat (Fl rnd)) (f3x : T3 (Fl rnd)) (f4x : T4 (Fl rnd)) (out : Output (Fl rnd) ι) (ht : s.rotor = .asymmTop)
    (h : run s o (.quartic fc2 f3x f4x) = some out) (m : ModesOut (Fl rnd) ι) (hm : runModes s o fc2 = some m)
    (F4 : F4qcm (Fl rnd))
    (hF : force4 s.n3n (rot4th s.n3n s.natom s.axes f4x) m.lx s.nvib (vecOf m.freq) = some F4)
    (hu : (2 * (s.nvib : ℝ) + 18 + 24 * κ) * u ≤ 1 / 2)
    (hp : ∀ i < s.nvib, 0 < (vecOf m.freq i).val)
    (ap : ApartBy κ s.nvib (Listed out.resonances.fermi1 out.resonances.fermi2) fun i => (vecOf m.freq i).val) :
    let W : Nat → ℝ := fun i => (vecOf m.freq i).val
    let φ : Nat → Nat → Nat → ℝ := fun a b c =>
      (f3Of (force3 s.n3n (rot3rd s.n3n s.natom s.axes f3x) m.lx s.nvib (vecOf m.freq)) a b c).val
    let ψ : Nat → Nat → Nat → Nat → ℝ := fun a b c d => (f4Of F4 a b c d).val
    let ζ : Nat → Nat → Nat → ℝ := fun a b c => (makeZmat s.nvib s.natom m.lxm a b c).val
    let A : Nat → ℝ := fun a => (s.rotcon a).val
    let R := Listed out.resonances.fermi1 out.resonances.fermi2
    let X := xSpec R s.nvib W φ ψ ζ A
    out.funds.length = s.nvib ∧ ∀ i < s.nvib, ∃ v, out.funds[i]? = some v ∧
      |v.val - (W i + 2 * X i i + 1 / 2 * ∑ j ∈ (range s.nvib).erase i, X i j)| ≤
        (4 * s.nvib + 36 + 48 * κ) * u * fundSize R s.nvib W φ ψ ζ A i := by
  intro W φ ψ ζ A R X
  obtain ⟨m', F4', hm', hF', hfin⟩ := run_quartic h
  obtain rfl : m' = m := Option.some.inj (hm'.symm.trans hm)
  obtain rfl : F4' = F4 := Option.some.inj (hF'.symm.trans hF)
  obtain ⟨r, x, hf, zc, v, v', e1, e2, e3, e4, -, -, f1, f2, f3, f4, f5, -, -, -, -, f10⟩ := finish_parts hfin
  obtain ⟨t, -, hmd, -, -, -, -, hf1, hf2⟩ := restst_parts e1
  have hst : s.rotor.isSymTop = false := by rw [ht]; rfl
  rw [finishX, hst] at e2
  obtain rfl := Option.some.inj (show some _ = some x from e2)
  rw [finishFunds, hst] at e3
  simp only [Bool.false_eq_true, if_false, Option.map_eq_some_iff] at e3
  obtain ⟨hs, hhs, rfl⟩ := e3
  subst f10
  rw [f2]
  refine ⟨by simp [makeFunds], fun i hi => ?_⟩
  obtain ⟨g1, g2⟩ := c107_growth hr.1 h1 (2 * s.nvib + 18) 3 (by norm_num) (by push_cast; linarith)
  have c : RoundCtx u κ rnd := ⟨hr, h1, g1⟩
  rw [hmd, ht] at hf2
  have hone : ∀ k l m, k < s.nvib → l < s.nvib → m < s.nvib → k ≠ l → OneOfThree R k l m :=
    fun k l m _ _ _ hkl => c31_detected _ _ _ _ _ _ hf2 k l m hkl
  obtain ⟨v, hv, h⟩ := c107_fundamentals hr h1 g1 s.nvib (f4Of F4') (vecOf m'.freq)
    (f3Of (force3 s.n3n (rot3rd s.n3n s.natom s.axes f3x) m'.lx s.nvib (vecOf m'.freq))) (makeZmat s.nvib s.natom m'.lxm)
    s.rotcon out.resonances.modes out.resonances.fermi1 out.resonances.fermi2 hone hp ap i hi
  refine ⟨v, hv, h.trans (mul_le_mul_of_nonneg_right ?_ ?_)⟩
  · push_cast at g2
    linarith
  · obtain ⟨v, -, -, h2⟩ := acc_fund c hp ap (chk_iff _ _) hone (f4Of F4')
      (f3Of (force3 s.n3n (rot3rd s.n3n s.natom s.axes f3x) m'.lx s.nvib (vecOf m'.freq))) (makeZmat s.nvib s.natom m'.lxm)
      s.rotcon hi
    exact (abs_nonneg _).trans h2

/-- Double precision, three modes at 1500, 1250 and 1000 cm⁻¹ with cubic constants 20, quartic constants 5 and Coriolis
constants: the hypotheses of `c107_energy` are met with `κ = 7`, and there are energies to compare with. -/
example : let rnd := nearest 53
    let w : Vec (Fl rnd) := fun i => ⟨closeFreqs i⟩
    let F3 : T3 (Fl rnd) := fun _ _ _ => ⟨20⟩
    let F4 : T4 (Fl rnd) := fun _ _ _ _ => ⟨5⟩
    let zeta : T3 (Fl rnd) := fun k l _ => ⟨((k : ℝ) - l) / 2⟩
    let B : Vec (Fl rnd) := fun a => ⟨(a : ℝ) + 1⟩
    Rounds (2 ^ (-(53 : ℕ) : ℤ)) rnd ∧ (2 * ((3 : ℕ) : ℝ) + 18 + 24 * 7) * 2 ^ (-(53 : ℕ) : ℤ) ≤ 1 / 2 ∧
    (∀ i < 3, 0 < (w i).val) ∧ ApartBy 7 3 (fun _ _ _ => False) (fun i => (w i).val) ∧
    Symm3 3 (fun a b c => (F3 a b c).val) ∧ Symm4 3 (fun a b c d => (F4 a b c d).val) ∧
    (∀ a k l, k < 3 → l < 3 → (zeta k l a).val = -(zeta l k a).val) ∧
    (∃ G0 G1 G2, VibEnergy (fun i => (w i).val) (fun a b c => (F3 a b c).val) (fun a b c d => (F4 a b c d).val)
      (fun a b c => (zeta a b c).val) (fun a => (B a).val) (fun _ : Fin 3 => 0) G0 G1 G2) ∧
    ∃ E0 E1 E2, VibEnergy (fun i => (w i).val) (fun a b c => (F3 a b c).val) (fun a b c d => (F4 a b c d).val)
      (fun a b c => (zeta a b c).val) (fun a => (B a).val) (fun j : Fin 3 => if (j : Nat) = 1 then 1 else 0) E0 E1 E2 := by
  intro rnd w F3 F4 zeta B
  refine ⟨c107_nearest 53 (by norm_num), by norm_num, closeFreqs_pos, ?_, fun _ _ _ => by simp [F3], fun _ _ _ _ => by simp [F4],
    fun a k l _ _ => by simp only [zeta]; ring, ?_, ?_⟩
  · intro k l m hk hl hm _
    simp only [w, closeFreqs]
    interval_cases k <;> interval_cases l <;> interval_cases m <;> norm_num [abs_of_pos, abs_of_neg]
  · exact c102_exists 3 closeFreqs (fun _ _ _ => 20) (fun k l _ => ((k : ℝ) - l) / 2) (fun _ _ _ _ => 5)
      (fun a => (a : ℝ) + 1) (fun _ => 0) (closeFreqs_alone _ (by simp))
  · exact c102_exists 3 closeFreqs (fun _ _ _ => 20) (fun k l _ => ((k : ℝ) - l) / 2) (fun _ _ _ _ => 5)
      (fun a => (a : ℝ) + 1) (fun j => if j = 1 then 1 else 0) (closeFreqs_alone _ (by simp))

/-- Rounding keeps signs. -/
theorem round_pos (hr : Rounds u rnd) {x : ℝ} (hx : 0 < x) : 0 < rnd x := by
  have h := (abs_le.1 (hr.2.2 x)).1
  rw [abs_of_pos hx] at h
  nlinarith [hr.2.1]

/-- An eigensolver that finds the eigenvalue 1 nine times. -/
noncomputable def unitOracles (rnd : ℝ → ℝ) : Oracles (Fl rnd) Nat :=
  { eigen := fun _ => (List.replicate 9 ⟨1⟩, fun i j => ⟨if i = j then 1 else 0⟩)
    eigen2 := fun p _ q => ([p, q], fun i j => ⟨if i = j then 1 else 0⟩)
    fuel := 4, irrepOf := fun _ _ => some 0, irrepA := 0 }

/-- Three atoms in rounded arithmetic. -/
noncomputable def roundedTop (rnd : ℝ → ℝ) : SpectroIn (Fl rnd) :=
  { header := [], natom := 3, n3n := 9, nvib := 3, i2vib := 6, rotor := .asymmTop, linear := false
    axes := fun i j => ⟨if i = j then 1 else 0⟩, primat := fun i => ⟨i + 1⟩, rotcon := fun i => ⟨3 - i⟩
    weights := fun _ => ⟨1⟩, pos := fun a x => ⟨a * x⟩, iatom := 0, axisOrder := 0, buddy := none }

/-- A run in double precision that meets the hypotheses of `c107_run` with `κ = 3`, whatever the force constants. -/
example (fc2 : Mat (Fl (nearest 53))) (f3x : T3 (Fl (nearest 53))) (f4x : T4 (Fl (nearest 53))) :
    ∃ out m F4, Rounds (2 ^ (-(53 : ℕ) : ℤ)) (nearest 53) ∧ (roundedTop (nearest 53)).rotor = .asymmTop ∧
    run (roundedTop (nearest 53)) (unitOracles _) (.quartic fc2 f3x f4x) = some out ∧
    runModes (roundedTop (nearest 53)) (unitOracles _) fc2 = some m ∧
    force4 9 (rot4th 9 3 (roundedTop (nearest 53)).axes f4x) m.lx 3 (vecOf m.freq) = some F4 ∧
    (2 * ((3 : ℕ) : ℝ) + 18 + 24 * 3) * 2 ^ (-(53 : ℕ) : ℤ) ≤ 1 / 2 ∧ (∀ i < 3, 0 < (vecOf m.freq i).val) ∧
    ApartBy 3 3 (Listed out.resonances.fermi1 out.resonances.fermi2) fun i => (vecOf m.freq i).val := by
  have hr := c107_nearest 53 (by norm_num)
  generalize hrnd : nearest 53 = rnd at *
  obtain ⟨out, hout⟩ := Option.isSome_iff_exists.1 (c74_any (roundedTop rnd) (unitOracles rnd) fc2 f3x f4x rfl
    (show 0 < 3 by decide) (show 3 ≤ 9 by decide) (show 6 = 3 * (3 + 1) / 2 by decide) (show 2 < 4 by decide)
    (fun m => by show (List.replicate 9 _).length = 9; simp) (fun p v q => rfl) (fun m => mapM_runs fun i _ => by
      simp [unitOracles, irrepLoop]))
  obtain ⟨m, F4, hm, hF, -⟩ := run_quartic hout
  have hfreq : ∀ i < 3, vecOf m.freq i = toWavenumber ⟨1⟩ := by
    have hm' := hm
    unfold runModes at hm'
    simp only [Option.bind_eq_bind, Option.bind_eq_some_iff] at hm'
    obtain ⟨p, -, irr, -, e⟩ := hm'
    obtain rfl := Option.some.inj e
    intro i hi
    obtain ⟨hlen, σ, s1, -, -, s4⟩ := c11_pairs_rearranged (List.replicate 9 (⟨1⟩ : Fl rnd))
      (fun i j => ⟨if i = j then 1 else 0⟩) true
    have h9 := (s4 i (by simp; omega)).1
    rw [List.getElem?_replicate, if_pos (by have := s1 i (by simp; omega); simpa using this)] at h9
    simp only [vecOf, toWavenumbers, List.getD_eq_getElem?_getD, List.getElem?_map]
    show ((Option.map toWavenumber (symmEigenDecomp (List.replicate 9 (⟨1⟩ : Fl rnd))
      (fun i j => ⟨if i = j then 1 else 0⟩) true).1[i]?).getD _) = _
    rw [h9]
    rfl
  have hW : 0 < (toWavenumber (⟨1⟩ : Fl rnd)).val := by
    have h0 : rnd 0 = 0 := by
      have := hr.2.2 0
      simpa using this
    have hlt : Arith.lt (⟨1⟩ : Fl rnd) (Arith.lit 0.0) = false := by
      show decide ((1 : ℝ) < rnd ((0.0 : ℚ) : ℝ)) = false
      have : ((0.0 : ℚ) : ℝ) = 0 := by norm_num
      rw [this, h0]
      norm_num
    rw [toWavenumber, hlt]
    refine round_pos hr (mul_pos (round_pos hr (div_pos (round_pos hr (mul_pos (round_pos hr ?_) (round_pos hr ?_)))
      (round_pos hr (mul_pos (round_pos hr (mul_pos (round_pos hr ?_) (round_pos hr Real.pi_pos))) (round_pos hr ?_)))))
      (round_pos hr ?_)) <;> norm_num
  refine ⟨out, m, F4, hr, rfl, hout, hm, hF, by norm_num, fun i hi => by rw [hfreq i hi]; exact hW, ?_⟩
  intro k l n hk hl hn _
  dsimp only
  rw [hfreq k hk, hfreq l hl, hfreq n hn, add_sub_cancel_right, abs_of_pos hW]
  linarith

end Verif
