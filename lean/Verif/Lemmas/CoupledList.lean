import Verif.Lemmas.TwoStateRes
import Verif.Props.Perturb

/-!
# Levels of coupled vibrations in terms of the formulas for the anharmonic constants

Helpers for C104.
-/

namespace Verif.Osc

open Finset

variable {N : Nat}

theorem isLevel_iff (h : Fin 2 → Fin 2 → ℝ) (e : ℝ) : IsLevel h e ↔ (h 0 0 - e) * (h 1 1 - e) = h 0 1 * h 1 0 := by
  constructor
  · rintro ⟨v, hv, he⟩
    have e0 := he 0
    have e1 := he 1
    rw [Fin.sum_univ_two] at e0 e1
    have k0 : ((h 0 0 - e) * (h 1 1 - e) - h 0 1 * h 1 0) * v 0 = 0 := by
      linear_combination (h 1 1 - e) * e0 - h 0 1 * e1
    have k1 : ((h 0 0 - e) * (h 1 1 - e) - h 0 1 * h 1 0) * v 1 = 0 := by
      linear_combination (h 0 0 - e) * e1 - h 1 0 * e0
    by_contra hc
    have hd : (h 0 0 - e) * (h 1 1 - e) - h 0 1 * h 1 0 ≠ 0 := sub_ne_zero.2 hc
    refine hv (funext fun i => ?_)
    fin_cases i
    · exact (mul_eq_zero.1 k0).resolve_left hd
    · exact (mul_eq_zero.1 k1).resolve_left hd
  · intro hd
    by_cases c1 : h 0 1 = 0 ∧ h 0 0 = e
    · by_cases c2 : h 1 0 = 0 ∧ h 1 1 = e
      · refine ⟨![1, 0], fun hv => by simpa using congrFun hv 0, fun i => ?_⟩
        rw [Fin.sum_univ_two]
        fin_cases i
        · simp [c1.2]
        · simp [c2.1]
      · refine ⟨![h 1 1 - e, -h 1 0], fun hv => c2 ⟨by simpa using congrFun hv 1, by
          have := congrFun hv 0
          simp at this
          linarith⟩, fun i => ?_⟩
        rw [Fin.sum_univ_two]
        fin_cases i
        · simp [c1.1, c1.2]
        · simp; ring
    · refine ⟨![h 0 1, e - h 0 0], fun hv => c1 ⟨by simpa using congrFun hv 0, by
        have := congrFun hv 1
        simp at this
        linarith⟩, fun i => ?_⟩
      rw [Fin.sum_univ_two]
      fin_cases i
      · simp; ring
      · simp; linear_combination -hd

/-- The second of two coupled levels is an eigenvalue, on the side of the level it belongs to. -/
theorem twoLevel_level {h : Fin 2 → Fin 2 → ℝ} {G p q v : ℝ} (h0 : h 0 0 = G + q) (h1 : h 1 1 = G + p)
    (hv : h 0 1 * h 1 0 = v ^ 2) :
    IsLevel h (G + (twoLevel p q v).2) ∧ ∀ e, IsLevel h e →
      if h 0 0 ≤ h 1 1 then G + (twoLevel p q v).2 ≤ e else e ≤ G + (twoLevel p q v).2 := by
  have hd0 : (0 : ℝ) ≤ ((p - q) / 2) ^ 2 + v ^ 2 := by positivity
  have hd := Real.sq_sqrt hd0
  have hs : 0 ≤ Real.sqrt (((p - q) / 2) ^ 2 + v ^ 2) := Real.sqrt_nonneg _
  generalize hD : Real.sqrt (((p - q) / 2) ^ 2 + v ^ 2) = d at hd hs
  have hval : (twoLevel p q v).2 = if q ≤ p then (p + q) / 2 - d else (p + q) / 2 + d := by
    unfold twoLevel
    simp only [hD]
    split <;> rfl
  have cond : h 0 0 ≤ h 1 1 ↔ q ≤ p := by rw [h0, h1]; exact add_le_add_iff_left G
  constructor
  · rw [isLevel_iff, h0, h1, hv, hval]
    split
    · linear_combination hd
    · linear_combination hd
  · intro e he
    rw [isLevel_iff, h0, h1, hv] at he
    have key : (e - G - (p + q) / 2) ^ 2 = d ^ 2 := by linear_combination he - hd
    have hb := abs_le_of_sq_le_sq' key.le hs
    rw [hval]
    simp only [cond]
    split
    · linarith [hb.1]
    · linarith [hb.2]

/-- The quadratic form of the anharmonic constants. -/
noncomputable def xForm (N : Nat) (x : Nat → Nat → ℝ) (n : Nat → Nat) : ℝ :=
  ∑ k ∈ range N, ∑ l ∈ range (k + 1), x k l * ((n k : ℝ) + 1 / 2) * ((n l : ℝ) + 1 / 2)

theorem xForm_add (N : Nat) (x : Nat → Nat → ℝ) (a b : Nat → Nat) :
    xForm N x (fun v => a v + b v) + xForm N x (fun _ => 0) = xForm N x a + xForm N x b +
      ∑ k ∈ range N, ∑ l ∈ range (k + 1), x k l * (a k * b l + b k * a l) := by
  unfold xForm
  simp only [← sum_add_distrib]
  refine sum_congr rfl fun k _ => sum_congr rfl fun l _ => ?_
  push_cast
  ring

theorem cross_sum (N : Nat) (x : Nat → Nat → ℝ) (hx : ∀ a b, x a b = x b a) (i j : Nat) (hi : i < N) (hj : j < N) :
    ∑ k ∈ range N, ∑ l ∈ range (k + 1), x k l * ((quanta i 1 k : ℝ) * quanta j 1 l + quanta j 1 k * quanta i 1 l) =
      if i = j then 2 * x i i else x i j := by
  have q1 : ∀ i k, (quanta i 1 k : ℝ) = if k = i then 1 else 0 := fun i k => by
    unfold quanta; split <;> simp
  have one : ∀ i j, i < N → ∑ k ∈ range N, ∑ l ∈ range (k + 1), x k l * ((quanta i 1 k : ℝ) * quanta j 1 l) =
      if j ≤ i then x i j else 0 := by
    intro i j hi
    rw [sum_eq_single i]
    · simp only [q1, if_true, one_mul, mul_ite, mul_one, mul_zero, sum_ite_eq', mem_range]
      by_cases h : j ≤ i
      · rw [if_pos (by omega), if_pos h]
      · rw [if_neg (by omega), if_neg h]
    · intro k _ hk
      refine sum_eq_zero fun l _ => ?_
      rw [q1 i, if_neg hk]; ring
    · intro h
      exact absurd (mem_range.2 hi) h
  simp only [mul_add, sum_add_distrib]
  rw [one i j hi, one j i hj]
  rcases lt_trichotomy i j with h | h | h
  · rw [if_neg (by omega), if_pos h.le, if_neg (by omega), zero_add, hx]
  · subst h; rw [if_pos le_rfl, if_pos rfl]; ring
  · rw [if_pos h.le, if_neg (by omega), if_neg (by omega), add_zero]

/-- The state with the quanta `i` and `j`. -/
def duo (i j v : Nat) : Nat := quanta i 1 v + quanta j 1 v

theorem toInt_quanta (i : Fin N) : (toInt fun v : Fin N => quanta i 1 v) = unit i := by
  funext v
  by_cases h : v = i
  · simp [toInt, quanta, unit_at, h]
  · have : (v : Nat) ≠ i := fun e => h (Fin.ext e)
    simp [toInt, quanta, unit_at, h, this]

theorem toInt_duo (i j : Fin N) : (toInt fun v : Fin N => duo i j v) = unit i + unit j := by
  funext v
  rw [Pi.add_apply, ← toInt_quanta, ← toInt_quanta]
  simp [toInt, duo]

/-- The level of a state, to second order, without the resonances. -/
noncomputable def restLevel (R : Nat → Nat → Nat → Prop) (w : Nat → ℝ) (φ : Nat → Nat → Nat → ℝ)
    (ψ : Nat → Nat → Nat → Nat → ℝ) (ζ : Nat → Nat → Nat → ℝ) (B : Nat → ℝ) (n : Fin N → Nat) : ℝ :=
  level w (toInt n) + (-secondR R w φ (toInt n) + expect2 w ψ ζ B (toInt n))

section
variable {R : Nat → Nat → Nat → Prop} (hR : ResRel fun a b c : Fin N => R a b c)
    {w : Nat → ℝ} {φ : Nat → Nat → Nat → ℝ} {ψ : Nat → Nat → Nat → Nat → ℝ} {ζ : Nat → Nat → Nat → ℝ}
    {B : Nat → ℝ} (h3 : Symm3 N φ) (h4 : Symm4 N ψ) (hz : ∀ a k l, k < N → l < N → ζ k l a = -ζ l k a)
    (hp : ∀ i < N, 0 < w i)

include hR h3 h4 hz hp

theorem restLevel_diff (n : Nat → Nat) :
    restLevel R w φ ψ ζ B (fun v : Fin N => n v) - restLevel R w φ ψ ζ B (fun _ : Fin N => 0) =
      ∑ i ∈ range N, w i * n i + (xForm N (xSpec R N w φ ψ ζ B) n - xForm N (xSpec R N w φ ψ ζ B) fun _ => 0) := by
  unfold restLevel
  rw [vib_valueR hR h3 h4 hz hp n, vib_valueR hR h3 h4 hz hp fun _ => 0, level_range, level_range w fun _ => 0]
  unfold xForm
  simp only [mul_add, sum_add_distrib, Nat.cast_zero, mul_zero, sum_const_zero]
  ring

theorem restLevel_quanta (i : Nat) (hi : i < N) :
    restLevel R w φ ψ ζ B (fun v : Fin N => quanta i 1 v) - restLevel R w φ ψ ζ B (fun _ : Fin N => 0) =
      w i + 2 * xSpec R N w φ ψ ζ B i i + 1 / 2 * ∑ j ∈ (range N).erase i, xSpec R N w φ ψ ζ B i j := by
  have xs := xSpec_symm R N w φ ψ ζ B
  rw [restLevel_diff hR h3 h4 hz hp (quanta i 1), ← single_sum _ xs w N i hi]
  unfold xForm
  simp only [mul_add, sum_add_distrib, quanta, ite_self, Nat.cast_zero, mul_zero, sum_const_zero]
  ring

theorem restLevel_duo (i j : Nat) (hi : i < N) (hj : j < N) :
    restLevel R w φ ψ ζ B (fun v : Fin N => duo i j v) - restLevel R w φ ψ ζ B (fun _ : Fin N => 0) =
      (restLevel R w φ ψ ζ B (fun v : Fin N => quanta i 1 v) - restLevel R w φ ψ ζ B (fun _ : Fin N => 0)) +
      (restLevel R w φ ψ ζ B (fun v : Fin N => quanta j 1 v) - restLevel R w φ ψ ζ B (fun _ : Fin N => 0)) +
      if i = j then 2 * xSpec R N w φ ψ ζ B i i else xSpec R N w φ ψ ζ B i j := by
  have xs := xSpec_symm R N w φ ψ ζ B
  rw [restLevel_diff hR h3 h4 hz hp (duo i j), restLevel_diff hR h3 h4 hz hp (quanta i 1),
    restLevel_diff hR h3 h4 hz hp (quanta j 1), ← cross_sum N _ xs i j hi hj]
  have := xForm_add N (xSpec R N w φ ψ ζ B) (quanta i 1) (quanta j 1)
  rw [show (fun v => quanta i 1 v + quanta j 1 v) = duo i j from rfl] at this
  have e : ∑ v ∈ range N, w v * (duo i j v : ℝ) = ∑ v ∈ range N, w v * (quanta i 1 v : ℝ) +
      ∑ v ∈ range N, w v * (quanta j 1 v : ℝ) := by
    rw [← sum_add_distrib]
    exact sum_congr rfl fun v _ => by simp only [duo]; push_cast; ring
  rw [e]
  linarith

end

theorem alone_level {w : Nat → ℝ} {a b : Nat → Nat} (h : Alone N w a b) (m : Fin N → Nat) (ha : m ≠ fun v : Fin N => a v)
    (hb : m ≠ fun v : Fin N => b v) : level w (toInt m) ≠ level w (toInt fun v : Fin N => a v) ∧
      level w (toInt m) ≠ level w (toInt fun v : Fin N => b v) := by
  let M : Nat → Nat := fun i => if h : i < N then m ⟨i, h⟩ else 0
  have hM : m = fun v : Fin N => M v := by funext v; simp [M]
  have ex : ∀ c : Nat → Nat, (m ≠ fun v : Fin N => c v) → ∃ i < N, M i ≠ c i := by
    intro c hc
    by_contra hn
    push Not at hn
    exact hc (by rw [hM]; funext v; exact hn v v.2)
  have := h M (ex a ha) (ex b hb)
  rw [hM, level_range w M, level_range w a, level_range w b]
  simp only [mul_add, sum_add_distrib]
  exact ⟨fun e => this.1 (by linarith), fun e => this.2 (by linarith)⟩

/-- The effective Hamiltonian of a fundamental and the overtone or combination with which it resonates. -/
theorem pair_value {R : Nat → Nat → Nat → Prop} (hR : ResRel fun a b c : Fin N => R a b c)
    {w : Nat → ℝ} {φ : Nat → Nat → Nat → ℝ} {ψ : Nat → Nat → Nat → Nat → ℝ} {ζ : Nat → Nat → Nat → ℝ}
    {B : Nat → ℝ} (h3 : Symm3 N φ) {i j k : Nat} (hi : i < N) (hj : j < N) (hk : k < N)
    (iso : Isolated R i j k) (al : Alone N w (quanta k 1) (duo i j)) {h0 h1 h2 : Fin 2 → Fin 2 → ℝ}
    (h : VibEffective w φ ψ ζ B (fun v : Fin N => quanta k 1 v) (fun v : Fin N => duo i j v) h0 h1 h2) :
    let H : Fin 2 → Fin 2 → ℝ := fun a b => h0 a b + h1 a b + h2 a b
    H 0 0 = restLevel R w φ ψ ζ B (fun v : Fin N => quanta k 1 v) ∧
    H 1 1 = restLevel R w φ ψ ζ B (fun v : Fin N => duo i j v) ∧ H 0 1 * H 1 0 = pairCoupling φ (i, j) k ^ 2 := by
  intro H
  have ta := toInt_quanta (⟨k, hk⟩ : Fin N)
  have tb := toInt_duo (⟨i, hi⟩ : Fin N) ⟨j, hj⟩
  dsimp only at ta tb
  have off := hR.off ⟨i, hi⟩ ⟨j, hj⟩ ⟨k, hk⟩ iso.1
  have hsh : Shift (fun a b c : Fin N => R a b c) ((toInt fun v : Fin N => duo i j v) - toInt fun v : Fin N => quanta k 1 v) := by
    rw [ta, tb, shift_iff hR]; exact iso.1
  obtain ⟨e0, e1, e2⟩ := eff_value (R := R) (by
      rw [ta, tb]
      simp only [Pi.add_apply, sum_sub_distrib, sum_add_distrib, sum_unit]
      decide) (alone_level al) (fun m hm => by
      have key : toInt m = unit (⟨k, hk⟩ : Fin N) ∨ toInt m = unit (⟨i, hi⟩ : Fin N) + unit ⟨j, hj⟩ := by
        rcases hm with hm | hm
        · exact isolated_shift (i := ⟨i, hi⟩) (j := ⟨j, hj⟩) (k := ⟨k, hk⟩) hR iso (.inl ta) hm
        · exact isolated_shift (i := ⟨i, hi⟩) (j := ⟨j, hj⟩) (k := ⟨k, hk⟩) hR iso (.inr tb) hm
      rw [← ta, ← tb] at key
      exact key.imp toInt_inj toInt_inj) ((shift_neg _).1 (by rw [neg_sub]; exact hsh)) h
  have hφ : Sy3 fun i j k : Fin N => φ i j k := fun i j k => h3 i j k i.2 j.2 k.2
  refine ⟨?_, ?_, ?_⟩
  · simp only [H, e0, e1, e2, if_true, add_zero, restLevel]; rfl
  · simp only [H, e0, e1, e2, if_true, add_zero, restLevel]; rfl
  · simp only [H, e0, e1, e2, show (0 : Fin 2) ≠ 1 by decide, show (1 : Fin 2) ≠ 0 by decide, if_false, zero_add, add_zero]
    have := coupling_sq off.1 off.2 hφ
    rw [← ta, ← tb] at this
    refine this.trans ?_
    unfold pairCoupling
    simp only [Fin.mk.injEq]

end Verif.Osc
