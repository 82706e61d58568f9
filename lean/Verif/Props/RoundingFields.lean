import Verif.Spec.RoundingFields
import Verif.Props.Rounding
import Verif.Props.Normal
import Verif.Lemmas.Xcalc

/-!
# C113: rounding errors of Coriolis constants and derivatives of the inertia tensor
-/

namespace Verif

open Finset

variable {u : ℝ} {rnd : ℝ → ℝ}

/-- Rounding alone, without cancellation in denominators. -/
theorem roundCtx_one (hr : Rounds u rnd) (hu : 8 * u ≤ 1 / 2) : RoundCtx u 1 rnd := by
  refine ⟨hr, le_rfl, ?_⟩
  have u0 := hr.1
  have b : 1 - 4 * u ≤ (1 - u) ^ 4 := by
    have := one_add_mul_le_pow (show (-2 : ℝ) ≤ -u by linarith) 4
    push_cast at this
    linarith [show (1 - u) ^ 4 = (1 + -u) ^ 4 by ring]
  rw [one_mul, div_pow, one_pow, div_sub_one (by nlinarith), div_lt_one (by nlinarith)]
  nlinarith

theorem growth_small (hr : Rounds u rnd) (e : Nat) (hs : (e : ℝ) * u ≤ 1 / 2) : growth u 1 e 0 - 1 ≤ 2 * (e * u) := by
  have u0 := hr.1
  have b : 1 - e * u ≤ (1 - u) ^ e := by
    have := one_add_mul_le_pow (show (-2 : ℝ) ≤ -u by linarith [hr.2.1]) e
    linarith [show (1 - u) ^ e = (1 + -u) ^ e by ring]
  have h0 : 0 ≤ (e : ℝ) * u := by positivity
  unfold growth
  rw [pow_zero, mul_one, div_pow, one_pow, div_sub_one (by nlinarith), div_le_iff₀ (by nlinarith)]
  nlinarith

section
variable (c : RoundCtx u 1 rnd)
include c

theorem acc_zero (e : Nat) (he : 1 ≤ e) : Acc u 1 e 0 (Arith.lit 0 : ℝ) (Arith.lit 0 : Fl rnd) 0 :=
  acc_mono c (acc_lit c 0 0 (by simp)) he le_rfl le_rfl

theorem acc_plus (n e : Nat) (he : 1 ≤ e) (f : Nat → ℝ) (g : Nat → Fl rnd) (T : Nat → ℝ)
    (h : ∀ i < n, Acc u 1 e 0 (f i) (g i) (T i)) :
    Acc u 1 (e + n) 0 (sumTo n f) (sumTo n g) (∑ i ∈ range n, T i) := by
  have := acc_foldl (u := u) (κ := 1) (d := 0) (e := e) n (fun s i => s + f i) (fun s i => s + g i) T
    (fun l hl e' v a V he' hv => acc_add c hv (h l hl) (by omega) (by omega) le_rfl le_rfl) (acc_zero c e he)
  rw [zero_add] at this
  exact this

theorem acc_minus (n e : Nat) (he : 1 ≤ e) (f : Nat → ℝ) (g : Nat → Fl rnd) (T : Nat → ℝ)
    (h : ∀ i < n, Acc u 1 e 0 (f i) (g i) (T i)) :
    Acc u 1 (e + n) 0 ((List.range n).foldl (fun s i => s - f i) (Arith.lit 0))
      ((List.range n).foldl (fun s i => s - g i) (Arith.lit 0)) (∑ i ∈ range n, T i) := by
  have := acc_foldl (u := u) (κ := 1) (d := 0) (e := e) n (fun s i => s - f i) (fun s i => s - g i) T
    (fun l hl e' v a V he' hv => acc_sub c hv (h l hl) (by omega) (by omega) le_rfl le_rfl) (acc_zero c e he)
  rw [zero_add] at this
  exact this

theorem acc_val (a : Fl rnd) : Acc u 1 0 0 a.val a |a.val| := acc_exact c a _ _ rfl rfl

theorem acc_root (a : Fl rnd) : Acc u 1 1 0 (Arith.sqrt a.val : ℝ) (Arith.sqrt a) (Real.sqrt a.val) := by
  rw [sqrt_real]
  exact acc_round c (e := 0) (d := 0) (by simp [growth]) (by rw [abs_of_nonneg (Real.sqrt_nonneg _)]) (by omega)

theorem acc_cross (p q r s : Fl rnd) : Acc u 1 2 0 (p.val * q.val - r.val * s.val) (p * q - r * s)
    (|p.val| * |q.val| + |r.val| * |s.val|) :=
  acc_sub c (e1 := 1) (d1 := 0) (e2 := 1) (d2 := 0) (acc_mul c (acc_val c p) (acc_val c q) (by omega) le_rfl)
    (acc_mul c (acc_val c r) (acc_val c s) (by omega) le_rfl) (by omega) (by omega) le_rfl le_rfl

theorem acc_dot (w p q r s : Fl rnd) : Acc u 1 4 0 ((Arith.sqrt w.val : ℝ) * (p.val * q.val + r.val * s.val))
    (Arith.sqrt w * (p * q + r * s)) (Real.sqrt w.val * (|p.val| * |q.val| + |r.val| * |s.val|)) :=
  acc_mul c (acc_root c w) (acc_add c (e := 2) (d := 0) (e1 := 1) (d1 := 0) (e2 := 1) (d2 := 0)
    (acc_mul c (acc_val c p) (acc_val c q) (by omega) le_rfl)
    (acc_mul c (acc_val c r) (acc_val c s) (by omega) le_rfl) (by omega) (by omega) le_rfl le_rfl) (by omega) le_rfl

theorem acc_prod (w p q : Fl rnd) : Acc u 1 4 0 ((Arith.sqrt w.val : ℝ) * p.val * q.val)
    (Arith.sqrt w * p * q) (Real.sqrt w.val * |p.val| * |q.val|) :=
  acc_mul c (acc_mul c (e := 2) (d := 0) (acc_root c w) (acc_val c p) (by omega) le_rfl) (acc_val c q) (by omega) le_rfl

theorem acc_double {e : Nat} {x T : ℝ} {a : Fl rnd} (h : Acc u 1 e 0 x a T) :
    Acc u 1 (e + 2) 0 ((Arith.lit 2.0 : ℝ) * x) (Arith.lit 2.0 * a) (2 * T) :=
  acc_mul c (acc_lit c 2.0 2 (by norm_num)) h (by omega) le_rfl

end

/-- C113, Coriolis constants: computed with rounded arithmetic from the columns of `lxm`, they differ from the exact ones by at most
`2 (natom + 2) u` times the sum of the sizes of the terms. -/
theorem c113_coriolis (hr : Rounds u rnd) (nvib natom : Nat) (hu : ((natom : ℝ) + 8) * u ≤ 1 / 2) (lxm : Mat (Fl rnd)) (k l x : Nat)
    (hk : k < nvib) (hl : l < nvib) (hx : x < 3) :
    |(makeZmat nvib natom lxm k l x).val - angularForm natom x (fun i => (lxm i k).val) (fun i => (lxm i l).val)| ≤
      2 * ((natom + 2) * u) * angularSize natom x (fun i => (lxm i k).val) (fun i => (lxm i l).val) := by
  have u0 := hr.1
  have c := roundCtx_one hr (by nlinarith [Nat.cast_nonneg (α := ℝ) natom])
  have g := growth_small hr (2 + natom) (by push_cast; nlinarith)
  have S : 0 ≤ angularSize natom x (fun i => (lxm i k).val) (fun i => (lxm i l).val) :=
    sum_nonneg fun i _ => by positivity
  have key : Acc u 1 (2 + natom) 0 (makeZmat nvib natom (fun i j => (lxm i j).val) k l x) (makeZmat nvib natom lxm k l x)
      (angularSize natom x (fun i => (lxm i k).val) (fun i => (lxm i l).val)) := by
    unfold makeZmat angularSize
    have hkl : k < nvib ∧ l < nvib := ⟨hk, hl⟩
    rw [if_pos hkl, if_pos hkl]
    have : x = 0 ∨ x = 1 ∨ x = 2 := by omega
    rcases this with rfl | rfl | rfl
    · exact acc_plus c natom 2 (by omega) _ _ _ fun i _ => acc_cross c ..
    · exact acc_plus c natom 2 (by omega) _ _ _ fun i _ => acc_cross c ..
    · exact acc_plus c natom 2 (by omega) _ _ _ fun i _ => acc_cross c ..
  have e := c15_angular nvib natom (fun i j => (lxm i j).val) k l x hk hl hx
  unfold colOf at e
  rw [e] at key
  refine key.1.trans (mul_le_mul_of_nonneg_right (g.trans ?_) S)
  push_cast
  linarith

/-- C113, Coriolis constants between normalised columns: the error is at most `2 (natom + 2) u`. -/
theorem c113_normalised (hr : Rounds u rnd) (nvib natom : Nat) (hu : ((natom : ℝ) + 8) * u ≤ 1 / 2) (lxm : Mat (Fl rnd)) (k l x : Nat)
    (hk : k < nvib) (hl : l < nvib) (hx : x < 3) (h1 : ∑ i ∈ range (3 * natom), (lxm i k).val ^ 2 = 1)
    (h2 : ∑ i ∈ range (3 * natom), (lxm i l).val ^ 2 = 1) :
    |(makeZmat nvib natom lxm k l x).val - angularForm natom x (fun i => (lxm i k).val) (fun i => (lxm i l).val)| ≤
      2 * ((natom + 2) * u) := by
  have u0 := hr.1
  refine (c113_coriolis hr nvib natom hu lxm k l x hk hl hx).trans ?_
  have part : ∀ v : Nat → ℝ, ∑ i ∈ range natom, (v (3 * i + (x + 1) % 3) ^ 2 + v (3 * i + (x + 2) % 3) ^ 2) ≤
      ∑ i ∈ range (3 * natom), v i ^ 2 := by
    intro v
    clear hu h1 h2
    induction natom with
    | zero => simp
    | succ n ih =>
      rw [sum_range_succ, show 3 * (n + 1) = 3 * n + 1 + 1 + 1 by ring, sum_range_succ, sum_range_succ, sum_range_succ]
      have : x = 0 ∨ x = 1 ∨ x = 2 := by omega
      rcases this with rfl | rfl | rfl <;> norm_num at ih ⊢ <;>
        nlinarith [ih, sq_nonneg (v (3 * n)), sq_nonneg (v (3 * n + 1)), sq_nonneg (v (3 * n + 2))]
  have size : angularSize natom x (fun i => (lxm i k).val) (fun i => (lxm i l).val) ≤ 1 := by
    have a := part fun i => (lxm i k).val
    have b := part fun i => (lxm i l).val
    rw [h1] at a
    rw [h2] at b
    have t : ∀ p q : ℝ, |p| * |q| ≤ (p ^ 2 + q ^ 2) / 2 := fun p q => by
      rw [← sq_abs p, ← sq_abs q]
      nlinarith [sq_nonneg (|p| - |q|)]
    calc angularSize natom x (fun i => (lxm i k).val) (fun i => (lxm i l).val)
        ≤ ∑ i ∈ range natom, (((lxm (3 * i + (x + 1) % 3) k).val ^ 2 + (lxm (3 * i + (x + 2) % 3) k).val ^ 2) / 2 +
            ((lxm (3 * i + (x + 1) % 3) l).val ^ 2 + (lxm (3 * i + (x + 2) % 3) l).val ^ 2) / 2) :=
          sum_le_sum fun i _ => by
            have t1 := t (lxm (3 * i + (x + 1) % 3) k).val (lxm (3 * i + (x + 2) % 3) l).val
            have t2 := t (lxm (3 * i + (x + 2) % 3) k).val (lxm (3 * i + (x + 1) % 3) l).val
            linarith
      _ ≤ 1 := by
          rw [sum_add_distrib, ← sum_div, ← sum_div]
          linarith
  exact (mul_le_mul_of_nonneg_left size (by positivity)).trans (by rw [mul_one])

theorem wilsonA_deriv (nvib natom : Nat) (P : Nat → Nat → ℝ) (L : Mat ℝ) (M : Vec ℝ) (k p q : Nat) (hk : k < nvib) (hpq : p ≤ q)
    (hq : q < 3) : wilsonA nvib natom P L M k (p + q * (q + 1) / 2) = inertiaDeriv natom P M (fun i => L i k) p q := by
  unfold wilsonA inertiaDeriv
  rw [if_pos hk]
  have : (p = 0 ∧ q = 0) ∨ (p = 1 ∧ q = 1) ∨ (p = 2 ∧ q = 2) ∨ (p = 0 ∧ q = 1) ∨ (p = 0 ∧ q = 2) ∨ (p = 1 ∧ q = 2) := by omega
  rcases this with ⟨rfl, rfl⟩ | ⟨rfl, rfl⟩ | ⟨rfl, rfl⟩ | ⟨rfl, rfl⟩ | ⟨rfl, rfl⟩ | ⟨rfl, rfl⟩ <;>
    norm_num [sumTo_real, foldl_sub_real, sqrt_real, lit_real]
  · exact sum_congr rfl fun i _ => by ring
  all_goals rfl

/-- C113, derivatives of the inertia tensor: component `(p, q)`, `p ≤ q`, computed with rounded arithmetic, differs from the exact one
by at most `2 (natom + 6) u` times the sum of the sizes of its terms. -/
theorem c113_inertia (hr : Rounds u rnd) (nvib natom : Nat) (hu : ((natom : ℝ) + 8) * u ≤ 1 / 2) (pos : Nat → Nat → Fl rnd)
    (lxm : Mat (Fl rnd)) (mass : Vec (Fl rnd)) (k p q : Nat) (hk : k < nvib) (hpq : p ≤ q) (hq : q < 3) :
    |(wilsonA nvib natom pos lxm mass k (p + q * (q + 1) / 2)).val -
        inertiaDeriv natom (fun i j => (pos i j).val) (fun i => (mass i).val) (fun i => (lxm i k).val) p q| ≤
      2 * ((natom + 6) * u) *
        inertiaSize natom (fun i j => (pos i j).val) (fun i => (mass i).val) (fun i => (lxm i k).val) p q := by
  have u0 := hr.1
  have c := roundCtx_one hr (by nlinarith [Nat.cast_nonneg (α := ℝ) natom])
  have g := growth_small hr (4 + natom + 2) (by push_cast; nlinarith)
  set P : Nat → Nat → ℝ := fun i j => (pos i j).val
  set M : Nat → ℝ := fun i => (mass i).val
  set L : Mat ℝ := fun i j => (lxm i j).val
  have key : Acc u 1 (4 + natom + 2) 0 (wilsonA nvib natom P L M k (p + q * (q + 1) / 2))
      (wilsonA nvib natom pos lxm mass k (p + q * (q + 1) / 2)) (inertiaSize natom P M (fun i => L i k) p q) := by
    unfold wilsonA inertiaSize
    rw [if_pos hk, if_pos hk]
    have : (p = 0 ∧ q = 0) ∨ (p = 1 ∧ q = 1) ∨ (p = 2 ∧ q = 2) ∨ (p = 0 ∧ q = 1) ∨ (p = 0 ∧ q = 2) ∨ (p = 1 ∧ q = 2) := by omega
    rcases this with ⟨rfl, rfl⟩ | ⟨rfl, rfl⟩ | ⟨rfl, rfl⟩ | ⟨rfl, rfl⟩ | ⟨rfl, rfl⟩ | ⟨rfl, rfl⟩
    · exact acc_double c (acc_plus c natom 4 (by omega) _ _ _ fun i _ => acc_dot c ..)
    · refine acc_mono c (acc_double c (acc_plus c natom 4 (by omega) _ _ _ fun i _ => acc_dot c ..)) le_rfl le_rfl (le_of_eq ?_)
      norm_num
      refine sum_congr rfl fun i _ => ?_
      ring
    · exact acc_double c (acc_plus c natom 4 (by omega) _ _ _ fun i _ => acc_dot c ..)
    · exact acc_double c (acc_minus c natom 4 (by omega) _ _ _ fun i _ => acc_prod c ..)
    · exact acc_double c (acc_minus c natom 4 (by omega) _ _ _ fun i _ => acc_prod c ..)
    · exact acc_double c (acc_minus c natom 4 (by omega) _ _ _ fun i _ => acc_prod c ..)
  have e : wilsonA nvib natom P L M k (p + q * (q + 1) / 2) = inertiaDeriv natom P M (fun i => L i k) p q :=
    wilsonA_deriv nvib natom P L M k p q hk hpq hq
  rw [e] at key
  have S : 0 ≤ inertiaSize natom P M (fun i => L i k) p q := (abs_nonneg _).trans key.2
  refine key.1.trans (mul_le_mul_of_nonneg_right (g.trans ?_) S)
  push_cast
  linarith

/-- C113, together with C62: for displacements without angular momentum, the exact value is the derivative of the inertia tensor. -/
theorem c113_derivative (hr : Rounds u rnd) (nvib natom : Nat) (hu : ((natom : ℝ) + 8) * u ≤ 1 / 2) (pos : Nat → Nat → Fl rnd)
    (lxm : Mat (Fl rnd)) (mass : Vec (Fl rnd)) (k p q : Nat) (hk : k < nvib) (hpq : p ≤ q) (hq : q < 3)
    (hm : ∀ i, i < natom → 0 < (mass i).val)
    (heck : p ≠ q → ∑ i ∈ range natom, Real.sqrt (mass i).val *
      ((pos i p).val * (lxm (3 * i + q) k).val - (pos i q).val * (lxm (3 * i + p) k).val) = 0) :
    ∃ D, HasDerivAt (fun t => inertia natom (fun i => (mass i).val)
        (displaced (fun i => (mass i).val) (fun i j => (pos i j).val) (fun i => (lxm i k).val) t) p q) D 0 ∧
      |(wilsonA nvib natom pos lxm mass k (p + q * (q + 1) / 2)).val - D| ≤ 2 * ((natom + 6) * u) *
        inertiaSize natom (fun i j => (pos i j).val) (fun i => (mass i).val) (fun i => (lxm i k).val) p q := by
  refine ⟨_, ?_, c113_inertia hr nvib natom hu pos lxm mass k p q hk hpq hq⟩
  have h := c62_derivative nvib natom (fun i j => (pos i j).val) (fun i j => (lxm i j).val) (fun i => (mass i).val) hm k hk p q
    (by omega) hq heck
  rw [show packPos p q = p + q * (q + 1) / 2 by
    interval_cases q <;> interval_cases p <;> rfl, wilsonA_deriv _ _ _ _ _ _ _ _ hk hpq hq] at h
  exact h

/-- Two modes of a diatomic in arithmetic with 53 binary digits: the hypotheses of C113 hold, and the exact Coriolis constant is 1. -/
example : let rnd := nearest 53
    let lxm : Mat (Fl rnd) := fun i j => ⟨if i = j then 3 / 5 else if i = j + 3 then -4 / 5 else 0⟩
    Rounds (2 ^ (-(53 : ℕ) : ℤ)) rnd ∧ (((2 : ℕ) : ℝ) + 8) * 2 ^ (-(53 : ℕ) : ℤ) ≤ 1 / 2 ∧
    ∑ i ∈ range (3 * 2), (lxm i 0).val ^ 2 = 1 ∧ ∑ i ∈ range (3 * 2), (lxm i 1).val ^ 2 = 1 ∧
    angularForm 2 2 (fun i => (lxm i 0).val) (fun i => (lxm i 1).val) = 1 := by
  intro rnd lxm
  refine ⟨c107_nearest 53 (by norm_num), by norm_num, ?_, ?_, ?_⟩
  · simp only [lxm, sum_range_succ, sum_range_zero]; norm_num
  · simp only [lxm, sum_range_succ, sum_range_zero]; norm_num
  · simp only [angularForm, lxm, sum_range_succ, sum_range_zero]; norm_num

/-- A stretched diatomic: the hypotheses of `c113_derivative` hold for every component, and the derivative is not zero. -/
example : let rnd := nearest 53
    let pos : Nat → Nat → Fl rnd := fun i j => ⟨if j = 2 then (if i = 0 then 1 else -1) else 0⟩
    let lxm : Mat (Fl rnd) := fun i _ => ⟨if i = 2 then 1 else if i = 5 then -1 else 0⟩
    (∀ p q, p ≤ q → q < 3 → ∑ i ∈ range 2, Real.sqrt 1 *
      ((pos i p).val * (lxm (3 * i + q) 0).val - (pos i q).val * (lxm (3 * i + p) 0).val) = 0) ∧
    inertiaDeriv 2 (fun i j => (pos i j).val) (fun _ => 1) (fun i => (lxm i 0).val) 0 0 = 4 := by
  intro rnd pos lxm
  refine ⟨fun p q hpq hq => ?_, ?_⟩
  · have : p < 3 := by omega
    simp only [pos, lxm, sum_range_succ, sum_range_zero]
    interval_cases p <;> interval_cases q <;> norm_num
  · simp only [inertiaDeriv, pos, lxm, sum_range_succ, sum_range_zero]
    norm_num

end Verif
