import Verif.Lemmas.Threefold
import Verif.Lemmas.TwoStateRes
import Verif.Lemmas.CoupledList

/-!
# The states of a degenerate pair do not mix

They behave differently under the flip, so the effective Hamiltonian of the two is diagonal, and each of them has an
energy. Helpers for C105.
-/

namespace Verif.Osc

open Finset

section
variable {σ : Type} [Fintype σ] [DecidableEq σ]

/-- The number of quanta in odd modes (`e v = 1`), relative to `n`, has the parity `s`. -/
def OddTot (e : σ → ZMod 2) (n : σ → ℤ) (s : ZMod 2) (f : (σ → ℤ) → ℝ) : Prop :=
  ∀ m, f m ≠ 0 → ∑ v, e v * ((m v - n v : ℤ) : ZMod 2) = s

variable {e : σ → ZMod 2}

theorem odd_one (n : σ → ℤ) : OddTot e n 0 (one n) := by
  intro m hm
  unfold one at hm
  split at hm
  · rename_i h; subst h; simp
  · exact absurd rfl hm

theorem odd_shift (n m : σ → ℤ) (i : σ) (x : ℤ) : ∑ v, e v * (((m + x • unit i) v - n v : ℤ) : ZMod 2) =
    ∑ v, e v * ((m v - n v : ℤ) : ZMod 2) + e i * x := by
  have : ∀ v, e v * (((m + x • unit i) v - n v : ℤ) : ZMod 2) = e v * ((m v - n v : ℤ) : ZMod 2) + (if v = i then e i * x else 0) := by
    intro v
    by_cases h : v = i
    · subst h; simp [unit_at]; ring
    · simp [unit_at, h]
  simp only [this, sum_add_distrib, sum_ite_eq', mem_univ, if_true]

theorem two_zero (a : ZMod 2) : a + a = 0 := by revert a; decide

theorem odd_step {n : σ → ℤ} {s : ZMod 2} {f : (σ → ℤ) → ℝ} (h : OddTot e n s f) (i : σ) (m : σ → ℤ)
    (hm : f (m - unit i) ≠ 0 ∨ f (m + unit i) ≠ 0) : ∑ v, e v * ((m v - n v : ℤ) : ZMod 2) = s + e i := by
  rcases hm with hm | hm
  · have := h _ hm
    rw [show m - unit i = m + (-1 : ℤ) • unit i by rw [neg_one_smul, sub_eq_add_neg], odd_shift] at this
    rw [← this]; push_cast; ring
  · have := h _ hm
    rw [show m + unit i = m + (1 : ℤ) • unit i by rw [one_smul], odd_shift] at this
    rw [← this]; push_cast; rw [mul_one, add_assoc, two_zero, add_zero]

theorem odd_q {n : σ → ℤ} {s : ZMod 2} {f : (σ → ℤ) → ℝ} (h : OddTot e n s f) (i : σ) : OddTot e n (s + e i) (q i f) := by
  intro m hm
  apply odd_step h i
  by_contra hc
  push Not at hc
  apply hm
  rw [q_apply, hc.1, hc.2]
  ring

theorem odd_d {n : σ → ℤ} {s : ZMod 2} {f : (σ → ℤ) → ℝ} (h : OddTot e n s f) (i : σ) : OddTot e n (s + e i) (d i f) := by
  intro m hm
  apply odd_step h i
  by_contra hc
  push Not at hc
  apply hm
  rw [d_apply, hc.1, hc.2]
  ring

theorem odd_smul {n : σ → ℤ} {s : ZMod 2} {f : (σ → ℤ) → ℝ} (c : ℝ) (h : c ≠ 0 → OddTot e n s f) : OddTot e n s (c • f) := by
  intro m hm
  have hc : c ≠ 0 := fun e => hm (by rw [Pi.smul_apply, e, zero_smul])
  exact h hc m fun e => hm (by rw [Pi.smul_apply, e, smul_zero])

theorem odd_flip_sum {ι : Type} {n : σ → ℤ} {s : ZMod 2} (t : Finset ι) {f : ι → (σ → ℤ) → ℝ} (h : ∀ i, OddTot e n s (f i)) :
    OddTot e n s (∑ i ∈ t, f i) := by
  intro m hm
  rw [Finset.sum_apply] at hm
  obtain ⟨i, -, hi⟩ := exists_ne_zero_of_sum_ne_zero hm
  exact h i m hi

theorem odd_cub {n : σ → ℤ} {s : ZMod 2} {f : (σ → ℤ) → ℝ} (h : OddTot e n s f) {φ : σ → σ → σ → ℝ}
    (hφ : ∀ i j k, φ i j k ≠ 0 → e k + e j + e i = 0) : OddTot e n s (cub φ f) := by
  refine odd_smul _ fun _ => odd_flip_sum _ fun i => odd_flip_sum _ fun j => odd_flip_sum _ fun k => odd_smul _ fun hne => ?_
  have := odd_q (odd_q (odd_q h k) j) i
  rwa [show s + e k + e j + e i = s + (e k + e j + e i) by ring, hφ i j k hne, add_zero] at this

theorem odd_qua {n : σ → ℤ} {s : ZMod 2} {f : (σ → ℤ) → ℝ} (h : OddTot e n s f) {ψ : σ → σ → σ → σ → ℝ}
    (hψ : ∀ i j k l, ψ i j k l ≠ 0 → e l + e k + e j + e i = 0) : OddTot e n s (qua ψ f) := by
  refine odd_smul _ fun _ => odd_flip_sum _ fun i => odd_flip_sum _ fun j => odd_flip_sum _ fun k => odd_flip_sum _ fun l => odd_smul _ fun hne => ?_
  have := odd_q (odd_q (odd_q (odd_q h l) k) j) i
  rwa [show s + e l + e k + e j + e i = s + (e l + e k + e j + e i) by ring, hψ i j k l hne, add_zero] at this

theorem odd_ang {n : σ → ℤ} {s δ : ZMod 2} {f : (σ → ℤ) → ℝ} (h : OddTot e n s f) (w : σ → ℝ) {ζ : σ → σ → ℝ}
    (hζ : ∀ i j, ζ i j ≠ 0 → e j + e i = δ) : OddTot e n (s + δ) (ang w ζ f) := by
  refine odd_flip_sum _ fun i => odd_flip_sum _ fun j => odd_smul _ fun hne => ?_
  have := odd_q (odd_d h j) i
  rwa [add_assoc, hζ i j fun c => hne (by rw [c, zero_mul])] at this

theorem odd_zero {n m : σ → ℤ} {s : ZMod 2} {f : (σ → ℤ) → ℝ} (h : OddTot e n s f)
    (hm : ∑ v, e v * ((m v - n v : ℤ) : ZMod 2) ≠ s) : f m = 0 := by
  by_contra hc
  exact hm (h m hc)

end

variable {N : Nat}

/-- A state which another one with the same energy cannot mix with has an energy. -/
theorem flip_exists {w : Nat → ℝ} {φ : Nat → Nat → Nat → ℝ} {ψ : Nat → Nat → Nat → Nat → ℝ} {ζ : Nat → Nat → Nat → ℝ} {B : Nat → ℝ}
    (e : Fin N → ZMod 2) (δ : Nat → ZMod 2) (a b : Fin N → Nat) (hab : a ≠ b)
    (alone : ∀ m, m ≠ a → m ≠ b → level w (toInt m) ≠ level w (toInt a) ∧ level w (toInt m) ≠ level w (toInt b))
    (h3 : ∀ i j k : Fin N, φ i j k ≠ 0 → e k + e j + e i = 0)
    (h4 : ∀ i j k l : Fin N, ψ i j k l ≠ 0 → e l + e k + e j + e i = 0)
    (hz : ∀ i j : Fin N, ∀ x, x < 3 → ζ i j x ≠ 0 → e j + e i = δ x)
    (hd : ∑ v, e v * ((toInt b v - toInt a v : ℤ) : ZMod 2) = 1) :
    ∃ E0 E1 E2, VibEnergy w φ ψ ζ B a E0 E1 E2 := by
  obtain ⟨h0, h1, h2, h⟩ := eff_exists w φ ψ ζ B a b hab alone
  obtain ⟨p0, p1, f, f1, f2, f3, f4⟩ := eff_parts hab h
  have n1 : (1 : ZMod 2) ≠ 0 := by decide
  have z0 : h0 1 0 = 0 := by rw [p0]; rfl
  have z1 : h1 1 0 = 0 := by
    rw [p1]
    exact odd_zero (odd_cub (odd_one (e := e) (toInt a)) h3) (show ∑ v, e v * ((toInt b v - toInt a v : ℤ) : ZMod 2) ≠ 0 by rw [hd]; exact n1)
  have of : OddTot e (toInt a) 0 (f 0) := by
    intro m hm
    have hma : m ≠ toInt a := fun c => hm (by rw [c]; exact f1 0 0)
    have hmb : m ≠ toInt b := fun c => hm (by rw [c]; exact f1 1 0)
    refine odd_cub (odd_one (e := e) (toInt a)) h3 m fun c => hm ?_
    by_cases neg : ∃ v, m v < 0
    · obtain ⟨v, hv⟩ := neg; exact f2 0 m v hv
    · push Not at neg
      obtain ⟨y, rfl⟩ := nonneg_toInt neg
      have k := f3 0 _ hma hmb
      rw [show cub (fun i j k : Fin N => φ i j k) (one (toInt ((![a, b] : Fin 2 → Fin N → Nat) 0))) (toInt y) = 0 from c, neg_zero] at k
      refine (mul_eq_zero.1 k).resolve_left fun c => ?_
      exact (alone y (fun e => hma (by rw [e])) (fun e => hmb (by rw [e]))).1 (sub_eq_zero.1 c)
  have z2 : h2 1 0 = 0 := by
    rw [f4]
    have hd' : ∑ v, e v * ((toInt b v - toInt a v : ℤ) : ZMod 2) ≠ 0 := by rw [hd]; exact n1
    have c0 : cub (fun i j k : Fin N => φ i j k) (f 0) (toInt b) = 0 := odd_zero (odd_cub of h3) hd'
    have q0 : amp (quartic ψ (oscState a) + coriolis w ζ B (oscState a)) (toInt b) = 0 := by
      rw [amp_add, Pi.add_apply, amp_quartic, amp_coriolis, amp_oscState, odd_zero (odd_qua (odd_one (e := e) (toInt a)) h4) hd',
        sum_eq_zero fun x hx => ?_, neg_zero, add_zero]
      have k := odd_ang (odd_ang (odd_one (e := e) (toInt a)) (fun i : Fin N => w i) (fun i j => hz i j x (mem_range.1 hx)))
        (fun i : Fin N => w i) (fun i j => hz i j x (mem_range.1 hx))
      rw [add_assoc, two_zero, add_zero] at k
      rw [odd_zero k hd', mul_zero]
    show cub (fun i j k : Fin N => φ i j k) (f 0) (toInt b) + amp (quartic ψ (oscState a) + coriolis w ζ B (oscState a)) (toInt b) = 0
    rw [c0, q0, add_zero]
  obtain ⟨q1, q2, -, hq⟩ := h
  obtain ⟨k0, k1, k2⟩ := hq 0
  refine ⟨h0 0 0, h1 0 0, h2 0 0, q1 0, q2 0, ?_, ?_, ?_⟩
  · rw [Fin.sum_univ_two, z0, zero_smul, add_zero] at k0
    exact k0
  · rw [Fin.sum_univ_two, z0, z1, zero_smul, zero_smul, add_zero, add_zero] at k1
    exact k1
  · rw [Fin.sum_univ_two, z0, z1, z2, zero_smul, zero_smul, zero_smul, add_zero, add_zero, add_zero] at k2
    exact k2

/-- The parity of a sign. -/
noncomputable def oddness (x : ℝ) : ZMod 2 := if x = 1 then 0 else 1

theorem oddness_mul {x y : ℝ} (hx : x = 1 ∨ x = -1) (hy : y = 1 ∨ y = -1) :
    (x * y = 1 ∨ x * y = -1) ∧ oddness (x * y) = oddness y + oddness x := by
  have n : (-1 : ℝ) ≠ 1 := by norm_num
  rcases hx with rfl | rfl <;> rcases hy with rfl | rfl <;> simp [oddness, n] <;> decide

theorem component_exists {one : List Nat} {two : List (Nat × Nat)} {s p : Nat → ℝ} {ax : Nat} {w : Nat → ℝ}
    {φ : Nat → Nat → Nat → ℝ} {ψ : Nat → Nat → Nat → Nat → ℝ} {ζ : Nat → Nat → Nat → ℝ} {B : Nat → ℝ}
    (h : Threefold N one two s p ax w φ ψ ζ B) {t : Nat × Nat} (ht : t ∈ two) {a b : Nat} (hab : (a = t.1 ∧ b = t.2) ∨ (a = t.2 ∧ b = t.1))
    (al : Alone N w (quanta a 1) (quanta b 1)) :
    ∃ E0 E1 E2, VibEnergy w φ ψ ζ B (fun j : Fin N => quanta a 1 j) E0 E1 E2 := by
  have d := h.distinct
  have hN : a < N ∧ b < N ∧ a ≠ b := by
    rcases hab with ⟨rfl, rfl⟩ | ⟨rfl, rfl⟩
    · exact ⟨h.ltf ht, h.lts ht, d.d23 ht ht⟩
    · exact ⟨h.lts ht, h.ltf ht, (d.d23 ht ht).symm⟩
  have n : (-1 : ℝ) ≠ 1 := by norm_num
  have sg : ∀ i : Fin N, p i = 1 ∨ p i = -1 := fun i => h.sign i i.2
  have fix : ∀ x c : ℝ, x ≠ 0 → x = c * x → c = 1 := fun x c hx hc => by
    have : (c - 1) * x = 0 := by linarith
    have := (mul_eq_zero.1 this).resolve_right hx
    linarith
  have o1 : oddness 1 = 0 := by simp [oddness]
  refine flip_exists (e := fun i => oddness (p i)) (δ := fun x => if x = ax then 0 else 1) _ (fun j : Fin N => quanta b 1 j) (fun c => ?_)
    (alone_level al) (fun i j k hne => ?_) (fun i j k l hne => ?_) (fun i j x hx hne => ?_) ?_
  · have := congrFun c ⟨a, hN.1⟩
    simp [quanta, hN.2.2] at this
  · have c := fix _ _ hne (h.flip3 i.2 j.2 k.2)
    have m1 := oddness_mul (sg i) (sg j)
    have m2 := oddness_mul m1.1 (sg k)
    have := m2.2
    rw [c, m1.2, o1] at this
    rw [this]
    ring
  · have c := fix _ _ hne (h.flip4 i.2 j.2 k.2 l.2)
    have m1 := oddness_mul (sg i) (sg j)
    have m2 := oddness_mul m1.1 (sg k)
    have m3 := oddness_mul m2.1 (sg l)
    have := m3.2
    rw [c, m2.2, m1.2, o1] at this
    rw [this]
    ring
  · have c := fix _ _ hne (h.flipz i.2 j.2 hx)
    have m1 := oddness_mul (sg i) (sg j)
    show oddness (p j) + oddness (p i) = _
    rw [← m1.2]
    by_cases e : x = ax
    · rw [if_pos e] at c ⊢
      rw [mul_one] at c
      rw [c, o1]
    · rw [if_neg e] at c ⊢
      have : p i * p j = -1 := by linarith
      rw [this]
      simp [oddness, n]
  · have ta : (toInt fun j : Fin N => quanta a 1 j) = unit ⟨a, hN.1⟩ := toInt_quanta ⟨a, hN.1⟩
    have tb : (toInt fun j : Fin N => quanta b 1 j) = unit ⟨b, hN.2.1⟩ := toInt_quanta ⟨b, hN.2.1⟩
    rw [ta, tb]
    have : ∀ v : Fin N, oddness (p v) * ((unit (⟨b, hN.2.1⟩ : Fin N) v - unit (⟨a, hN.1⟩ : Fin N) v : ℤ) : ZMod 2) =
        (if v = ⟨b, hN.2.1⟩ then oddness (p b) else 0) + (if v = ⟨a, hN.1⟩ then oddness (p a) else 0) := by
      intro v
      have neg : (-1 : ZMod 2) = 1 := by decide
      rw [unit_at, unit_at]
      by_cases ca : v = ⟨a, hN.1⟩ <;> by_cases cb : v = ⟨b, hN.2.1⟩
      · exact absurd (congrArg Fin.val (ca.symm.trans cb)) hN.2.2
      · rw [if_neg cb, if_pos ca, if_neg cb, if_pos ca]; subst ca; push_cast; rw [neg, mul_one, zero_add]
      · rw [if_neg ca, if_pos cb, if_neg ca, if_pos cb]; subst cb; push_cast; rw [mul_one, add_zero]
      · rw [if_neg ca, if_neg cb, if_neg ca, if_neg cb]; simp
    simp only [this, sum_add_distrib, sum_ite_eq', mem_univ, if_true]
    obtain ⟨c1, c2⟩ := h.components t ht
    rcases hab with ⟨rfl, rfl⟩ | ⟨rfl, rfl⟩
    · rw [c1, c2]; simp [oddness, n]
    · rw [c1, c2]; simp [oddness, n]

end Verif.Osc
