import Verif.Props.RoundingTau
import Verif.Spec.Whole

/-!
# C115: rounding errors of the distortion constants of the A reduction
-/

namespace Verif

open Finset

variable {u : ℝ} {rnd : ℝ → ℝ}

section
variable (c : RoundCtx u 1 rnd)
include c

theorem acc_litMul {e : Nat} {x T : ℝ} {a : Fl rnd} (q : ℚ) (k : ℝ) (hk : (q : ℝ) = k) (h0 : 0 ≤ k) (h : Acc u 1 e 0 x a T) :
    Acc u 1 (e + 2) 0 (k * x) (Arith.lit q * a) (k * T) := by
  have := acc_mul c (e := e + 2) (d := 0) (acc_lit c q k (by rw [hk, abs_of_nonneg h0])) h (by omega) le_rfl
  rwa [lit_real, hk] at this

theorem acc_litDiv {e : Nat} {x T : ℝ} {a : Fl rnd} (q : ℚ) (k : ℝ) (hk : (q : ℝ) = k) (h0 : 0 ≤ k) (h : Acc u 1 e 0 x a T) :
    Acc u 1 (e + 2) 0 (x / k) (a / Arith.lit q) (T / k) := by
  have := acc_div c (e := e + 2) (d := 0) h (rel_lit c q) (by rw [lit_real, hk, abs_of_nonneg h0]) (by omega) le_rfl
  rwa [lit_real, hk] at this

theorem acc_plus2 {e e1 e2 : Nat} {x y T U : ℝ} {a b : Fl rnd} (h1 : Acc u 1 e1 0 x a T) (h2 : Acc u 1 e2 0 y b U)
    (he1 : e1 < e) (he2 : e2 < e) : Acc u 1 e 0 (x + y) (a + b) (T + U) := acc_add c h1 h2 he1 he2 le_rfl le_rfl

theorem acc_minus2 {e e1 e2 : Nat} {x y T U : ℝ} {a b : Fl rnd} (h1 : Acc u 1 e1 0 x a T) (h2 : Acc u 1 e2 0 y b U)
    (he1 : e1 < e) (he2 : e2 < e) : Acc u 1 e 0 (x - y) (a - b) (T + U) := acc_sub c h1 h2 he1 he2 le_rfl le_rfl

/-- The combinations `τ'`, in rounded arithmetic. -/
theorem acc_tauPrime (n : Nat) (w I : Vec (Fl rnd)) (A : Mat (Fl rnd)) (i j : Nat) :
    Acc u 1 (n + 14) 0
      (3.833384078e04 / 2 * tauPair (distortion n (fun a => (w a).val) (fun a => (I a).val) (fun v p q => (A v (pairIdx p q)).val)) i j)
      (tauPrime (makeTau n w I A) i j)
      (3.833384078e04 / 2 * tauPair (distortionSize n (fun a => (w a).val) (fun a => (I a).val)
        (fun v p q => (A v (pairIdx p q)).val)) i j) := by
  unfold tauPrime tauPair
  by_cases hij : i = j
  · subst hij
    simp only [ne_eq, not_true_eq_false, if_false, if_true]
    exact acc_mono c (acc_tau c n w I A i i i i) (by omega) le_rfl le_rfl
  · simp only [ne_eq, hij, not_false_eq_true, if_true, if_false]
    have h := acc_plus2 c (e := n + 14) (acc_tau c n w I A i i j j)
      (acc_litMul c 2.0 2 (by norm_num) (by norm_num) (acc_tau c n w I A i j i j)) (by omega) (by omega)
    convert h using 1 <;> ring

end

/-- C115, constants of the A reduction of asymmetric tops: computed with rounded arithmetic, the five quartic distortion constants and the
three rotational constants differ from their exact values for the same inertia derivatives, frequencies, moments and rotational constants
by at most `2 (n + 32) u` times the sum of the sizes of their terms. -/
theorem c115_reduction (hr : Rounds u rnd) (n : Nat) (hu : ((n : ℝ) + 32) * u ≤ 1 / 2) (w I B : Vec (Fl rnd)) (A : Mat (Fl rnd))
    (q : Quartic (Fl rnd)) (hq : Quartic.new .asymmTop n B I w A = some q) :
    let P := fun i j => 3.833384078e04 / 2 *
      tauPair (distortion n (fun a => (w a).val) (fun a => (I a).val) (fun v p q => (A v (pairIdx p q)).val)) i j
    let Q := fun i j => 3.833384078e04 / 2 *
      tauPair (distortionSize n (fun a => (w a).val) (fun a => (I a).val) (fun v p q => (A v (pairIdx p q)).val)) i j
    let near := fun (computed : Fl rnd) (exact size : ℝ) => |computed.val - exact| ≤ 2 * ((n + 32) * u) * size
    -- the exact constants
    let σ := (2 * (B 0).val - (B 1).val - (B 2).val) / ((B 1).val - (B 2).val)
    let R6 := (P 1 1 + P 2 2 - 2 * P 1 2) / 64
    let DJ := -(3 * P 1 1 + 3 * P 2 2 + 2 * P 1 2) / 32
    let DJK := -(P 1 0 + P 2 0) / 4 - 2 * DJ
    let DK := -P 0 0 / 4 - DJK - DJ
    let δJ := -(P 1 1 - P 2 2) / 16
    -- the sizes of their terms
    let sσ := (2 * |(B 0).val| + |(B 1).val| + |(B 2).val|) / |(B 1).val - (B 2).val|
    let s6 := (Q 1 1 + Q 2 2 + 2 * Q 1 2) / 64
    let sJ := (3 * Q 1 1 + 3 * Q 2 2 + 2 * Q 1 2) / 32
    let sJK := (Q 1 0 + Q 2 0) / 4 + 2 * sJ
    let sK := Q 0 0 / 4 + sJK + sJ
    let sδ := (Q 1 1 + Q 2 2) / 16
    near q.delj (DJ - 2 * R6) (sJ + 2 * s6) ∧ near q.deljk (DJK + 12 * R6) (sJK + 12 * s6) ∧
    near q.delk (DK - 10 * R6) (sK + 10 * s6) ∧ near q.sdelj δJ sδ ∧
    near q.sdelk (-((P 1 0 - P 2 0) / 8 + δJ) - 4 * σ * R6) ((Q 1 0 + Q 2 0) / 8 + sδ + 4 * sσ * s6) ∧
    near q.bza ((B 0).val + 16 * R6) (|(B 0).val| + 16 * s6) ∧
    near q.bxa ((B 1).val - 8 * (σ + 1) * R6) (|(B 1).val| + 8 * (sσ + 1) * s6) ∧
    near q.bya ((B 2).val + 8 * (σ - 1) * R6) (|(B 2).val| + 8 * (sσ + 1) * s6) := by
  intro P Q near σ R6 DJ DJK DK δJ sσ s6 sJ sJK sK sδ
  have u0 := hr.1
  have c := roundCtx_one hr (by nlinarith [Nat.cast_nonneg (α := ℝ) n])
  have g := growth_small hr (n + 32) (by push_cast; linarith)
  have fin : ∀ {e : Nat} {x T x' T' : ℝ} {a : Fl rnd}, Acc u 1 e 0 x a T → e ≤ n + 32 → x = x' → T = T' → near a x' T' := by
    intro e x T x' T' a h he hx hT
    subst hx hT
    have h' := acc_mono c h he le_rfl le_rfl
    refine h'.1.trans (mul_le_mul_of_nonneg_right (g.trans (le_of_eq ?_)) ((abs_nonneg _).trans h.2))
    push_cast
    ring
  have h := acc_tauPrime c n w I A
  change ∀ i j, Acc u 1 (n + 14) 0 (P i j) (tauPrime (makeTau n w I A) i j) (Q i j) at h
  obtain rfl := Option.some.inj (show some _ = some q from hq)
  generalize tauPrime (makeTau n w I A) = τ at h ⊢
  have hd0 : (princCart 0).2 0 = 1 := rfl
  have hd1 : (princCart 0).2 1 = 2 := rfl
  have hd2 : (princCart 0).2 2 = 0 := rfl
  have hm : (if Rotor.asymmTop.spectroLinear = true then 2 else 3) = 3 := rfl
  have e00 : quarticT 3 (princCart 0).1 τ 0 0 = τ 1 1 / Arith.lit 4.0 := rfl
  have e11 : quarticT 3 (princCart 0).1 τ 1 1 = τ 2 2 / Arith.lit 4.0 := rfl
  have e22 : quarticT 3 (princCart 0).1 τ 2 2 = τ 0 0 / Arith.lit 4.0 := rfl
  have e01 : quarticT 3 (princCart 0).1 τ 0 1 = τ 1 2 / Arith.lit 4.0 := rfl
  have e02 : quarticT 3 (princCart 0).1 τ 0 2 = τ 1 0 / Arith.lit 4.0 := rfl
  have e12 : quarticT 3 (princCart 0).1 τ 1 2 = τ 2 0 / Arith.lit 4.0 := rfl
  have t := fun i j => acc_litDiv c 4.0 4 (by norm_num) (by norm_num) (h i j)
  have t400 := acc_litDiv c 8.0 8 (by norm_num) (by norm_num) (acc_plus2 c (e := n + 20) (acc_plus2 c (e := n + 19)
    (acc_litMul c 3.0 3 (by norm_num) (by norm_num) (t 1 1)) (acc_litMul c 3.0 3 (by norm_num) (by norm_num) (t 2 2))
    (by omega) (by omega)) (acc_litMul c 2.0 2 (by norm_num) (by norm_num) (t 1 2)) (by omega) (by omega))
  have t220 := acc_minus2 c (e := n + 25) (acc_plus2 c (e := n + 17) (t 1 0) (t 2 0) (by omega) (by omega))
    (acc_litMul c 2.0 2 (by norm_num) (by norm_num) t400) (by omega) (by omega)
  have t040 := acc_minus2 c (e := n + 27) (acc_minus2 c (e := n + 26) (t 0 0) t220 (by omega) (by omega)) t400 (by omega) (by omega)
  have t202 := acc_litDiv c 4.0 4 (by norm_num) (by norm_num) (acc_minus2 c (e := n + 17) (t 1 1) (t 2 2) (by omega) (by omega))
  have t022 := acc_minus2 c (e := n + 20) (acc_litDiv c 2.0 2 (by norm_num) (by norm_num)
    (acc_minus2 c (e := n + 17) (t 1 0) (t 2 0) (by omega) (by omega))) t202 (by omega) (by omega)
  have t004 := acc_litDiv c 16.0 16 (by norm_num) (by norm_num) (acc_minus2 c (e := n + 19) (acc_plus2 c (e := n + 17) (t 1 1) (t 2 2)
    (by omega) (by omega)) (acc_litMul c 2.0 2 (by norm_num) (by norm_num) (t 1 2)) (by omega) (by omega))
  have dif : Rel u 1 1 0 ((B 1).val - (B 2).val) (B 1 - B 2) := by
    have := rel_round c (e := 0) (d := 0) (e' := 1) (y := (B 1).val - (B 2).val) (t := 1) one_pos (by simp [growth]) (by simp [growth])
      (by omega)
    rw [mul_one] at this
    exact this
  have sig : Acc u 1 6 0 σ ((Arith.lit 2.0 * B 0 - B 1 - B 2) / (B 1 - B 2)) sσ :=
    acc_div c (acc_minus2 c (e := 4) (acc_minus2 c (e := 3) (acc_litMul c 2.0 2 (by norm_num) (by norm_num) (acc_val c (B 0)))
      (acc_val c (B 1)) (by omega) (by omega)) (acc_val c (B 2)) (by omega) (by omega)) dif rfl (by omega) le_rfl
  have one := acc_lit c 1.0 1 (by norm_num)
  rw [lit_real, show ((1.0 : ℚ) : ℝ) = 1 by norm_num] at one
  have eight1 := acc_mul c (e := n + 31) (d := 0) (acc_litMul c 8.0 8 (by norm_num) (by norm_num)
    (acc_plus2 c (e := 7) sig one (by omega) (by omega))) t004 (by omega) le_rfl
  have eight2 := acc_mul c (e := n + 31) (d := 0) (acc_litMul c 8.0 8 (by norm_num) (by norm_num)
    (acc_minus2 c (e := 7) sig one (by omega) (by omega))) t004 (by omega) le_rfl
  dsimp only
  rw [hm, e00, e11, e22, e01, e02, e12, hd0, hd1, hd2]
  refine ⟨?_, ?_, ?_, ?_, ?_, ?_, ?_, ?_⟩
  · refine fin (acc_minus2 c (e := n + 32) (acc_neg c t400) (acc_litMul c 2.0 2 (by norm_num) (by norm_num) t004) (by omega) (by omega))
      le_rfl ?_ ?_ <;> simp only [DJ, R6, sJ, s6] <;> ring
  · refine fin (acc_plus2 c (e := n + 32) (acc_neg c t220) (acc_litMul c 12.0 12 (by norm_num) (by norm_num) t004) (by omega) (by omega))
      le_rfl ?_ ?_ <;> simp only [DJ, DJK, R6, sJ, sJK, s6] <;> ring
  · refine fin (acc_minus2 c (e := n + 32) (acc_neg c t040) (acc_litMul c 10.0 10 (by norm_num) (by norm_num) t004) (by omega) (by omega))
      le_rfl ?_ ?_ <;> simp only [DJ, DJK, DK, R6, sJ, sJK, sK, s6] <;> ring
  · refine fin (acc_neg c t202) (by omega) ?_ ?_ <;> simp only [δJ, sδ] <;> ring
  · refine fin (acc_minus2 c (e := n + 32) (acc_neg c t022) (acc_mul c (e := n + 31) (d := 0)
      (acc_litMul c 4.0 4 (by norm_num) (by norm_num) sig) t004 (by omega) le_rfl) (by omega) (by omega)) le_rfl ?_ ?_ <;>
      simp only [δJ, sδ, R6, s6] <;> ring
  · refine fin (acc_plus2 c (e := n + 32) (acc_val c (B 0)) (acc_litMul c 16.0 16 (by norm_num) (by norm_num) t004) (by omega) (by omega))
      le_rfl ?_ ?_ <;> simp only [R6, s6] <;> ring
  · refine fin (acc_minus2 c (e := n + 32) (acc_val c (B 1)) eight1 (by omega) (by omega)) le_rfl ?_ ?_ <;>
      simp only [R6, s6] <;> ring
  · refine fin (acc_plus2 c (e := n + 32) (acc_val c (B 2)) eight2 (by omega) (by omega)) le_rfl ?_ ?_ <;>
      simp only [R6, s6] <;> ring

/-- Arithmetic with 53 binary digits and six modes: the hypotheses hold, and a distortion constant is not zero. -/
example : ∃ (B I w : Vec (Fl (nearest 53))) (A : Mat (Fl (nearest 53))) (q : Quartic (Fl (nearest 53))),
    Rounds (2 ^ (-(53 : ℕ) : ℤ)) (nearest 53) ∧ (((6 : ℕ) : ℝ) + 32) * 2 ^ (-(53 : ℕ) : ℤ) ≤ 1 / 2 ∧
    Quartic.new .asymmTop 6 B I w A = some q ∧ (B 1).val - (B 2).val ≠ 0 ∧
    tauPair (distortion 6 (fun a => (w a).val) (fun a => (I a).val) (fun v p q => (A v (pairIdx p q)).val)) 0 0 < 0 := by
  refine ⟨fun a => ⟨3 - a⟩, fun a => ⟨a + 1⟩, fun _ => ⟨1000⟩, fun v p => ⟨v + 1⟩, _, c107_nearest 53 (by norm_num), by norm_num, rfl,
    by norm_num, ?_⟩
  simp only [tauPair, if_true, distortion]
  rw [neg_lt_zero]
  exact sum_pos (fun v _ => by positivity) ⟨0, by simp⟩

theorem rel_div {κ : ℝ} (c : RoundCtx u κ rnd) {e d e1 d1 e2 d2 : Nat} {x y : ℝ} {a b : Fl rnd} (h1 : Rel u κ e1 d1 x a)
    (h2 : Rel u κ e2 d2 y b) (he : e1 + e2 < e) (hd : d1 + d2 ≤ d) : Rel u κ e d (x / y) (a / b) := by
  obtain ⟨t, a0, ta, a1, a2, -, -⟩ := rel_bounds c h1
  obtain ⟨s, b0, sb, b1, b2, -, -⟩ := rel_bounds c h2
  have g1 := c.growth_one e1 d1
  have g2 := c.growth_one e2 d2
  have hg : growth u κ (e1 + e2) (d1 + d2) = growth u κ e1 d1 * growth u κ e2 d2 := by
    simp only [growth, pow_add]; ring
  have := rel_round c (e := e1 + e2) (d := d1 + d2) (y := x / y) (t := t / s) (by positivity) (by
    rw [hg, div_mul_eq_mul_div, le_div_iff₀ sb, one_mul]
    nlinarith [mul_le_mul_of_nonneg_right a1 (zero_le_one.trans g2)]) (by
    rw [hg, div_le_iff₀ sb]
    nlinarith [mul_le_mul_of_nonneg_left b1 (zero_le_one.trans g1)]) (e' := e) he
  have hv : a / b = (⟨rnd (x / y * (t / s))⟩ : Fl rnd) := by
    show (⟨rnd (a.val / b.val)⟩ : Fl rnd) = _
    rw [a0, b0, mul_div_mul_comm]
  rw [hv]
  exact rel_mono c this le_rfl hd

/-- C115, constants of the S reduction of asymmetric tops: if the top is not too close to `2 A = B + C`, as measured by `κ`, the five
quartic distortion constants and the three rotational constants differ from their exact values for the same inertia derivatives,
frequencies, moments and rotational constants by at most `2 (n + 28 + 8 κ) u` times the sum of the sizes of their terms. -/
theorem c115_sreduction (hr : Rounds u rnd) (n : Nat) (κ : ℝ) (hκ : 1 ≤ κ) (hu : ((n : ℝ) + 28 + 8 * κ) * u ≤ 1 / 2)
    (w I B : Vec (Fl rnd)) (A : Mat (Fl rnd)) (h0 : 2 * (B 0).val - (B 1).val - (B 2).val ≠ 0)
    (hB : 2 * |(B 0).val| + |(B 1).val| + |(B 2).val| ≤ κ * |2 * (B 0).val - (B 1).val - (B 2).val|)
    (q : Quartic (Fl rnd)) (hq : Quartic.new .asymmTop n B I w A = some q) :
    let P := fun i j => 3.833384078e04 / 2 *
      tauPair (distortion n (fun a => (w a).val) (fun a => (I a).val) (fun v p q => (A v (pairIdx p q)).val)) i j
    let Q := fun i j => 3.833384078e04 / 2 *
      tauPair (distortionSize n (fun a => (w a).val) (fun a => (I a).val) (fun v p q => (A v (pairIdx p q)).val)) i j
    let near := fun (computed : Fl rnd) (exact size : ℝ) => |computed.val - exact| ≤ 2 * ((n + 28 + 8 * κ) * u) * size
    -- the exact constants
    let σ := (2 * (B 0).val - (B 1).val - (B 2).val) / ((B 1).val - (B 2).val)
    let R6 := (P 1 1 + P 2 2 - 2 * P 1 2) / 64
    let DJ := -(3 * P 1 1 + 3 * P 2 2 + 2 * P 1 2) / 32
    let DJK := -(P 1 0 + P 2 0) / 4 - 2 * DJ
    let DK := -P 0 0 / 4 - DJK - DJ
    let δJ := -(P 1 1 - P 2 2) / 16
    let R5 := ((P 1 0 - P 2 0) / 8 + δJ) / 2
    -- the sizes of their terms
    let s6 := (Q 1 1 + Q 2 2 + 2 * Q 1 2) / 64
    let sJ := (3 * Q 1 1 + 3 * Q 2 2 + 2 * Q 1 2) / 32
    let sJK := (Q 1 0 + Q 2 0) / 4 + 2 * sJ
    let sK := Q 0 0 / 4 + sJK + sJ
    let sδ := (Q 1 1 + Q 2 2) / 16
    let s5 := ((Q 1 0 + Q 2 0) / 8 + sδ) / 2
    near q.dj (DJ + R5 / σ) (sJ + s5 / |σ|) ∧ near q.djk (DJK - 6 * R5 / σ) (sJK + 6 * s5 / |σ|) ∧
    near q.dk (DK + 5 * R5 / σ) (sK + 5 * s5 / |σ|) ∧ near q.sd1 (-δJ) sδ ∧
    near q.sd2 (R6 + R5 / (2 * σ)) (s6 + s5 / (2 * |σ|)) ∧
    near q.bzs ((B 0).val + 6 * R6 - 5 * R5 / σ) (|(B 0).val| + 6 * s6 + 5 * s5 / |σ|) ∧
    near q.bxs ((B 1).val - 4 * R6 + (4 + 2 / σ) * R5) (|(B 1).val| + 4 * s6 + (4 + 2 / |σ|) * s5) ∧
    near q.bys ((B 2).val - 4 * R6 - (4 - 2 / σ) * R5) (|(B 2).val| + 4 * s6 + (4 + 2 / |σ|) * s5) := by
  intro P Q near σ R6 DJ DJK DK δJ R5 s6 sJ sJK sK sδ s5
  have u0 := hr.1
  have c1 := roundCtx_one hr (by nlinarith [Nat.cast_nonneg (α := ℝ) n])
  obtain ⟨g1, g⟩ := c107_growth hr.1 hκ (n + 28) 1 le_rfl (by push_cast; linarith)
  have c : RoundCtx u κ rnd := ⟨hr, hκ, g1⟩
  have lift : ∀ {e : Nat} {x T : ℝ} {a : Fl rnd}, Acc u 1 e 0 x a T → Acc u κ e 0 x a T := by
    intro e x T a h
    simpa [Acc, growth] using h
  have fin : ∀ {e d : Nat} {x T x' T' : ℝ} {a : Fl rnd}, Acc u κ e d x a T → e ≤ n + 28 → d ≤ 1 → x = x' → T = T' → near a x' T' := by
    intro e d x T x' T' a h he hd hx hT
    subst hx hT
    have h' := acc_mono c h he hd le_rfl
    refine h'.1.trans (mul_le_mul_of_nonneg_right (g.trans (le_of_eq ?_)) ((abs_nonneg _).trans h.2))
    push_cast
    ring
  have h := acc_tauPrime c1 n w I A
  change ∀ i j, Acc u 1 (n + 14) 0 (P i j) (tauPrime (makeTau n w I A) i j) (Q i j) at h
  obtain rfl := Option.some.inj (show some _ = some q from hq)
  generalize tauPrime (makeTau n w I A) = τ at h ⊢
  have hd0 : (princCart 0).2 0 = 1 := rfl
  have hd1 : (princCart 0).2 1 = 2 := rfl
  have hd2 : (princCart 0).2 2 = 0 := rfl
  have hm : (if Rotor.asymmTop.spectroLinear = true then 2 else 3) = 3 := rfl
  have e00 : quarticT 3 (princCart 0).1 τ 0 0 = τ 1 1 / Arith.lit 4.0 := rfl
  have e11 : quarticT 3 (princCart 0).1 τ 1 1 = τ 2 2 / Arith.lit 4.0 := rfl
  have e22 : quarticT 3 (princCart 0).1 τ 2 2 = τ 0 0 / Arith.lit 4.0 := rfl
  have e01 : quarticT 3 (princCart 0).1 τ 0 1 = τ 1 2 / Arith.lit 4.0 := rfl
  have e02 : quarticT 3 (princCart 0).1 τ 0 2 = τ 1 0 / Arith.lit 4.0 := rfl
  have e12 : quarticT 3 (princCart 0).1 τ 1 2 = τ 2 0 / Arith.lit 4.0 := rfl
  have t := fun i j => acc_litDiv c1 4.0 4 (by norm_num) (by norm_num) (h i j)
  have t400 := acc_litDiv c1 8.0 8 (by norm_num) (by norm_num) (acc_plus2 c1 (e := n + 20) (acc_plus2 c1 (e := n + 19)
    (acc_litMul c1 3.0 3 (by norm_num) (by norm_num) (t 1 1)) (acc_litMul c1 3.0 3 (by norm_num) (by norm_num) (t 2 2))
    (by omega) (by omega)) (acc_litMul c1 2.0 2 (by norm_num) (by norm_num) (t 1 2)) (by omega) (by omega))
  have t220 := acc_minus2 c1 (e := n + 25) (acc_plus2 c1 (e := n + 17) (t 1 0) (t 2 0) (by omega) (by omega))
    (acc_litMul c1 2.0 2 (by norm_num) (by norm_num) t400) (by omega) (by omega)
  have t040 := acc_minus2 c1 (e := n + 27) (acc_minus2 c1 (e := n + 26) (t 0 0) t220 (by omega) (by omega)) t400 (by omega) (by omega)
  have t202 := acc_litDiv c1 4.0 4 (by norm_num) (by norm_num) (acc_minus2 c1 (e := n + 17) (t 1 1) (t 2 2) (by omega) (by omega))
  have t022 := acc_minus2 c1 (e := n + 20) (acc_litDiv c1 2.0 2 (by norm_num) (by norm_num)
    (acc_minus2 c1 (e := n + 17) (t 1 0) (t 2 0) (by omega) (by omega))) t202 (by omega) (by omega)
  have t004 := acc_litDiv c1 16.0 16 (by norm_num) (by norm_num) (acc_minus2 c1 (e := n + 19) (acc_plus2 c1 (e := n + 17) (t 1 1) (t 2 2)
    (by omega) (by omega)) (acc_litMul c1 2.0 2 (by norm_num) (by norm_num) (t 1 2)) (by omega) (by omega))
  have dif : Rel u 1 1 0 ((B 1).val - (B 2).val) (B 1 - B 2) := by
    have := rel_round c1 (e := 0) (d := 0) (e' := 1) (y := (B 1).val - (B 2).val) (t := 1) one_pos (by simp [growth]) (by simp [growth])
      (by omega)
    rw [mul_one] at this
    exact this
  have num := rel_of_acc c (lift (acc_minus2 c1 (e := 4) (acc_minus2 c1 (e := 3) (acc_litMul c1 2.0 2 (by norm_num) (by norm_num)
    (acc_val c1 (B 0))) (acc_val c1 (B 1)) (by omega) (by omega)) (acc_val c1 (B 2)) (by omega) (by omega))) le_rfl h0 hB
  have dif' : Rel u κ 1 0 ((B 1).val - (B 2).val) (B 1 - B 2) := by simpa [Rel, growth] using dif
  have sig : Rel u κ 2 1 σ ((Arith.lit 2.0 * B 0 - B 1 - B 2) / (B 1 - B 2)) := rel_div c num dif' (by omega) (by omega)
  have over : ∀ (l : ℚ) (k : ℝ), (l : ℝ) = k → 0 ≤ k → Acc u κ (n + 25) 1 _ _ _ := fun l k hk hp =>
    acc_div c (e := n + 25) (d := 1) (lift (acc_litMul c1 l k hk hp t022)) sig rfl (by omega) le_rfl
  have two := acc_lit c 2.0 2 (by norm_num)
  rw [lit_real, show ((2.0 : ℚ) : ℝ) = 2 by norm_num] at two
  have one := acc_lit c 1.0 1 (by norm_num)
  rw [lit_real, show ((1.0 : ℚ) : ℝ) = 1 by norm_num] at one
  have inv := acc_div c (e := 4) (d := 1) one sig rfl (by omega) le_rfl
  have sig2 := rel_mul c (e := 4) (d := 1) (rel_lit c 2.0) sig (by omega) le_rfl
  rw [lit_real, show ((2.0 : ℚ) : ℝ) = 2 by norm_num] at sig2
  dsimp only
  rw [hm, e00, e11, e22, e01, e02, e12]
  refine ⟨?_, ?_, ?_, ?_, ?_, ?_, ?_, ?_⟩
  · refine fin (acc_add c (e := n + 28) (d := 1) (lift (acc_neg c1 t400)) (over 0.5 (1 / 2) (by norm_num) (by norm_num)) (by omega)
      (by omega) (by omega) le_rfl) le_rfl le_rfl ?_ ?_ <;> simp only [DJ, R5, δJ, sJ, s5, sδ] <;> ring
  · refine fin (acc_sub c (e := n + 28) (d := 1) (lift (acc_neg c1 t220)) (over 3.0 3 (by norm_num) (by norm_num)) (by omega)
      (by omega) (by omega) le_rfl) le_rfl le_rfl ?_ ?_ <;> simp only [DJ, DJK, R5, δJ, sJ, sJK, s5, sδ] <;> ring
  · refine fin (acc_add c (e := n + 28) (d := 1) (lift (acc_neg c1 t040)) (over 2.5 (5 / 2) (by norm_num) (by norm_num)) (by omega)
      (by omega) (by omega) le_rfl) le_rfl le_rfl ?_ ?_ <;> simp only [DJ, DJK, DK, R5, δJ, sJ, sJK, sK, s5, sδ] <;> ring
  · refine fin (lift t202) (by omega) (by omega) ?_ ?_ <;> simp only [δJ, sδ] <;> ring
  · refine fin (acc_add c (e := n + 28) (d := 1) (lift t004) (over 0.25 (1 / 4) (by norm_num) (by norm_num)) (by omega)
      (by omega) (by omega) le_rfl) le_rfl le_rfl ?_ ?_ <;> simp only [R6, R5, δJ, s6, s5, sδ] <;> ring
  · refine fin (acc_sub c (e := n + 28) (d := 1) (lift (acc_plus2 c1 (e := n + 24) (acc_val c1 (B 0))
      (acc_litMul c1 6.0 6 (by norm_num) (by norm_num) t004) (by omega) (by omega)))
      (acc_div c (e := n + 27) (d := 1) (lift (acc_litMul c1 5.0 5 (by norm_num) (by norm_num) t022)) sig2 rfl (by omega) le_rfl)
      (by omega) (by omega) (by omega) le_rfl) le_rfl le_rfl ?_ ?_
    · simp only [R6, R5, δJ]; ring
    · simp only [s6, s5, sδ, abs_mul, abs_two]; ring
  · refine fin (acc_add c (e := n + 28) (d := 1) (lift (acc_minus2 c1 (e := n + 24) (acc_val c1 (B 1))
      (acc_litMul c1 4.0 4 (by norm_num) (by norm_num) t004) (by omega) (by omega)))
      (acc_mul c (e := n + 26) (d := 1) (acc_add c (e := 5) (d := 1) two inv (by omega) (by omega) (by omega) le_rfl) (lift t022)
        (by omega) le_rfl) (by omega) (by omega) (by omega) le_rfl) le_rfl le_rfl ?_ ?_ <;>
      simp only [R6, R5, δJ, s6, s5, sδ] <;> ring
  · refine fin (acc_sub c (e := n + 28) (d := 1) (lift (acc_minus2 c1 (e := n + 24) (acc_val c1 (B 2))
      (acc_litMul c1 4.0 4 (by norm_num) (by norm_num) t004) (by omega) (by omega)))
      (acc_mul c (e := n + 26) (d := 1) (acc_sub c (e := 5) (d := 1) two inv (by omega) (by omega) (by omega) le_rfl) (lift t022)
        (by omega) le_rfl) (by omega) (by omega) (by omega) le_rfl) le_rfl le_rfl ?_ ?_ <;>
      simp only [R6, R5, δJ, s6, s5, sδ] <;> ring

/-- Arithmetic with 53 binary digits, six modes and rotational constants 8, 3, 2: the hypotheses hold with `κ = 2`, and the term with `σ` is
not zero. -/
example : ∃ (B I w : Vec (Fl (nearest 53))) (A : Mat (Fl (nearest 53))) (q : Quartic (Fl (nearest 53))),
    Rounds (2 ^ (-(53 : ℕ) : ℤ)) (nearest 53) ∧ (((6 : ℕ) : ℝ) + 28 + 8 * 2) * 2 ^ (-(53 : ℕ) : ℤ) ≤ 1 / 2 ∧
    2 * (B 0).val - (B 1).val - (B 2).val ≠ 0 ∧
    2 * |(B 0).val| + |(B 1).val| + |(B 2).val| ≤ 2 * |2 * (B 0).val - (B 1).val - (B 2).val| ∧
    Quartic.new .asymmTop 6 B I w A = some q ∧ (B 1).val - (B 2).val ≠ 0 ∧
    tauPair (distortion 6 (fun a => (w a).val) (fun a => (I a).val) (fun v p q => (A v (pairIdx p q)).val)) 0 0 < 0 := by
  refine ⟨fun a => ⟨if a = 0 then 8 else 4 - a⟩, fun a => ⟨a + 1⟩, fun _ => ⟨1000⟩, fun v p => ⟨v + 1⟩, _, c107_nearest 53 (by norm_num),
    by norm_num, by norm_num, by norm_num [abs_of_pos], rfl, by norm_num, ?_⟩
  simp only [tauPair, if_true, distortion]
  rw [neg_lt_zero]
  exact sum_pos (fun v _ => by positivity) ⟨0, by simp⟩

/-- C115, centrifugal distortion of linear and diatomic molecules: the constant is computed with a relative error of at most
`2 (n + 13) u`. -/
theorem c115_linear (hr : Rounds u rnd) (n : Nat) (hu : ((n : ℝ) + 14) * u ≤ 1 / 2) (w I B : Vec (Fl rnd)) (A : Mat (Fl rnd))
    (rotor : Rotor) (x : Nat) (hx : rotor = .linear ∧ x = 0 ∨ rotor = .diatomic ∧ x = 1)
    (q : Quartic (Fl rnd)) (hq : Quartic.new rotor n B I w A = some q) :
    let D := 3.833384078e04 / 8 * ∑ v ∈ range n, (A v (pairIdx x x)).val ^ 2 / ((w v).val ^ 2 * (I x).val ^ 4)
    |q.de.val - D| ≤ 2 * ((n + 13) * u) * D := by
  intro D
  have u0 := hr.1
  have c := roundCtx_one hr (by nlinarith [Nat.cast_nonneg (α := ℝ) n])
  have g := growth_small hr (n + 13) (by push_cast; nlinarith)
  have e : q.de = -(tauPrime (makeTau n w I A) x x / Arith.lit 4.0) := by
    rcases hx with ⟨rfl, rfl⟩ | ⟨rfl, rfl⟩ <;> obtain rfl := Option.some.inj (show some _ = some q from hq) <;>
      simp [quarticT, princCart, IPTOC, Mat.set, List.range_succ, Rotor.spectroLinear]
  have h := acc_neg c (acc_litDiv c 4.0 4 (by norm_num) (by norm_num) (acc_tau c n w I A x x x x))
  have e' : tauPrime (makeTau n w I A) x x = makeTau n w I A x x x x := by simp [tauPrime]
  rw [e, e']
  have q1 : -(3.833384078e04 / 2 * distortion n (fun a => (w a).val) (fun a => (I a).val) (fun v p q => (A v (pairIdx p q)).val) x x x x / 4) = D := by
    simp only [D, distortion, mul_neg, neg_div, neg_neg]
    rw [show ∑ v ∈ range n, (A v (pairIdx x x)).val * (A v (pairIdx x x)).val / ((w v).val ^ 2 * ((I x).val * (I x).val * (I x).val * (I x).val)) =
      ∑ v ∈ range n, (A v (pairIdx x x)).val ^ 2 / ((w v).val ^ 2 * (I x).val ^ 4) from sum_congr rfl fun v _ => by ring]
    ring
  have q2 : 3.833384078e04 / 2 * distortionSize n (fun a => (w a).val) (fun a => (I a).val) (fun v p q => (A v (pairIdx p q)).val) x x x x / 4 = D := by
    simp only [D, distortionSize]
    rw [show ∑ v ∈ range n, |(A v (pairIdx x x)).val| * |(A v (pairIdx x x)).val| / ((w v).val ^ 2 * |(I x).val * (I x).val * (I x).val * (I x).val|) =
      ∑ v ∈ range n, (A v (pairIdx x x)).val ^ 2 / ((w v).val ^ 2 * (I x).val ^ 4) from sum_congr rfl fun v _ => by
        rw [abs_mul_abs_self, show (I x).val * (I x).val * (I x).val * (I x).val = (I x).val ^ 4 by ring, abs_of_nonneg (by positivity), pow_two (A v (pairIdx x x)).val]]
    ring
  rw [q1, q2] at h
  refine h.1.trans (mul_le_mul_of_nonneg_right (g.trans (le_of_eq ?_)) ((abs_nonneg _).trans h.2))
  push_cast
  ring

/-- Arithmetic with 53 binary digits and four modes of a linear molecule: the hypotheses hold, and the constant is positive. -/
example : ∃ (B I w : Vec (Fl (nearest 53))) (A : Mat (Fl (nearest 53))) (q : Quartic (Fl (nearest 53))),
    Rounds (2 ^ (-(53 : ℕ) : ℤ)) (nearest 53) ∧ (((4 : ℕ) : ℝ) + 14) * 2 ^ (-(53 : ℕ) : ℤ) ≤ 1 / 2 ∧
    Quartic.new .linear 4 B I w A = some q ∧
    0 < ∑ v ∈ range 4, (A v (pairIdx 0 0)).val ^ 2 / ((w v).val ^ 2 * (I 0).val ^ 4) := by
  refine ⟨fun a => ⟨3 - a⟩, fun a => ⟨a + 1⟩, fun _ => ⟨1000⟩, fun v p => ⟨v + 1⟩, _, c107_nearest 53 (by norm_num), by norm_num, rfl, ?_⟩
  exact sum_pos (fun v _ => by positivity) ⟨0, by simp⟩

end Verif
