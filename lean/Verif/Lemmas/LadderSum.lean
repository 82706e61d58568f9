import Verif.Lemmas.LadderG
import Mathlib.Algebra.BigOperators.Ring.Finset
import Mathlib.Tactic.Linarith

/-!
# Sums over modes, sorted by which of them are equal

Helpers for C102.
-/

namespace Verif.Osc

open Finset

variable {σ : Type} [Fintype σ] [DecidableEq σ]

/-! ## Parity -/

/-- `f` is non-zero only at occupation numbers that differ from `n` by an odd number where `S` is 1 and by an even
number where `S` is 0. -/
def Par (n : σ → ℤ) (S : σ → ZMod 2) (f : (σ → ℤ) → ℝ) : Prop :=
  ∀ m, f m ≠ 0 → ∀ v, ((m v - n v : ℤ) : ZMod 2) = S v

/-- The parity of one quantum. -/
def odd (i : σ) : σ → ZMod 2 := Pi.single i 1

theorem par_one (n : σ → ℤ) : Par n 0 (one n) := by
  intro m hm v
  unfold one at hm
  split at hm
  · rename_i h; subst h; simp
  · exact absurd rfl hm

private theorem unit_cast (i v : σ) : ((unit i v : ℤ) : ZMod 2) = odd i v := by
  by_cases h : v = i
  · subst h; simp [unit, odd]
  · simp [unit, odd, h]

private theorem two_add (a b : ZMod 2) : a + b + b = a := by
  revert a b; decide

theorem par_step {n : σ → ℤ} {S : σ → ZMod 2} {f : (σ → ℤ) → ℝ} (h : Par n S f) (i : σ) (m : σ → ℤ)
    (hm : f (m - unit i) ≠ 0 ∨ f (m + unit i) ≠ 0) (v : σ) : ((m v - n v : ℤ) : ZMod 2) = (odd i + S) v := by
  rcases hm with hm | hm
  · have := h _ hm v
    rw [Pi.add_apply, ← this]
    simp only [Pi.sub_apply]
    push_cast
    rw [unit_cast]
    ring
  · have := h _ hm v
    rw [Pi.add_apply, ← this]
    simp only [Pi.add_apply]
    push_cast
    rw [unit_cast]
    have := two_add ((m v : ZMod 2) - n v) (odd i v)
    linear_combination -this

theorem par_q {n : σ → ℤ} {S : σ → ZMod 2} {f : (σ → ℤ) → ℝ} (h : Par n S f) (i : σ) : Par n (odd i + S) (q i f) := by
  intro m hm
  apply par_step h
  by_contra hc
  push Not at hc
  apply hm
  rw [q_apply, hc.1, hc.2]
  ring

theorem par_d {n : σ → ℤ} {S : σ → ZMod 2} {f : (σ → ℤ) → ℝ} (h : Par n S f) (i : σ) : Par n (odd i + S) (d i f) := by
  intro m hm
  apply par_step h
  by_contra hc
  push Not at hc
  apply hm
  rw [d_apply, hc.1, hc.2]
  ring

theorem par_res {n : σ → ℤ} {S : σ → ZMod 2} {f : (σ → ℤ) → ℝ} (w : σ → ℝ) (h : Par n S f) : Par n S (res w n f) := by
  intro m hm
  apply h
  intro hc
  apply hm
  rw [res_apply, hc, zero_div]

theorem par_at {n : σ → ℤ} {S : σ → ZMod 2} {f : (σ → ℤ) → ℝ} (h : Par n S f) (hf : f n ≠ 0) : S = 0 := by
  funext v
  have := h n hf v
  simpa using this.symm

/-! ## Sorted sums -/

/-- The sum over pairs of different modes. -/
noncomputable def D2 (f : σ → σ → ℝ) : ℝ := ∑ a, ∑ b, if a ≠ b then f a b else 0

/-- The sum over triples of different modes. -/
noncomputable def D3 (f : σ → σ → σ → ℝ) : ℝ := ∑ a, ∑ b, ∑ c, if a ≠ b ∧ a ≠ c ∧ b ≠ c then f a b c else 0

theorem D2_congr {f g : σ → σ → ℝ} (h : ∀ a b, a ≠ b → f a b = g a b) : D2 f = D2 g := by
  refine sum_congr rfl fun a _ => sum_congr rfl fun b _ => ?_
  split
  · exact h a b (by assumption)
  · rfl

theorem D3_congr {f g : σ → σ → σ → ℝ} (h : ∀ a b c, a ≠ b → a ≠ c → b ≠ c → f a b c = g a b c) : D3 f = D3 g := by
  refine sum_congr rfl fun a _ => sum_congr rfl fun b _ => sum_congr rfl fun c _ => ?_
  split
  · rename_i h'; exact h a b c h'.1 h'.2.1 h'.2.2
  · rfl

theorem D2_add (f g : σ → σ → ℝ) : D2 (fun a b => f a b + g a b) = D2 f + D2 g := by
  simp only [D2, ← sum_add_distrib]
  refine sum_congr rfl fun a _ => sum_congr rfl fun b _ => ?_
  split <;> simp

theorem D2_smul (c : ℝ) (f : σ → σ → ℝ) : D2 (fun a b => c * f a b) = c * D2 f := by
  simp only [D2, mul_sum]
  refine sum_congr rfl fun a _ => sum_congr rfl fun b _ => ?_
  split <;> simp

theorem D3_add (f g : σ → σ → σ → ℝ) : D3 (fun a b c => f a b c + g a b c) = D3 f + D3 g := by
  simp only [D3, ← sum_add_distrib]
  refine sum_congr rfl fun a _ => sum_congr rfl fun b _ => sum_congr rfl fun c _ => ?_
  split <;> simp

theorem D3_smul (c : ℝ) (f : σ → σ → σ → ℝ) : D3 (fun a b d => c * f a b d) = c * D3 f := by
  simp only [D3, mul_sum]
  refine sum_congr rfl fun a _ => sum_congr rfl fun b _ => sum_congr rfl fun c _ => ?_
  split <;> simp

theorem D2_swap (f : σ → σ → ℝ) : D2 f = D2 fun a b => f b a := by
  unfold D2
  rw [sum_comm]
  refine sum_congr rfl fun a _ => sum_congr rfl fun b _ => ?_
  simp only [ne_comm]

theorem D3_cycle (f : σ → σ → σ → ℝ) : D3 f = D3 fun a b c => f b c a := by
  unfold D3
  rw [sum_comm]
  refine (sum_congr rfl fun a _ => sum_comm).trans ?_
  rw [sum_comm]
  refine sum_congr rfl fun c _ => ?_
  rw [sum_comm]
  refine sum_congr rfl fun a _ => sum_congr rfl fun b _ => ?_
  have : (a ≠ b ∧ a ≠ c ∧ b ≠ c) ↔ (c ≠ a ∧ c ≠ b ∧ a ≠ b) := by
    simp only [ne_comm]; tauto
  simp only [this]

/-- Two sums over pairs are equal if their symmetric parts are. -/
theorem D2_eq {f g : σ → σ → ℝ} (h : ∀ a b, a ≠ b → f a b + f b a = g a b + g b a) : D2 f = D2 g := by
  have e1 : D2 (fun a b => f a b + f b a) = D2 f + D2 f := by rw [D2_add, ← D2_swap]
  have e2 : D2 (fun a b => g a b + g b a) = D2 g + D2 g := by rw [D2_add, ← D2_swap]
  have := D2_congr h
  linarith

/-- Two sums over triples are equal if their cyclic parts are. -/
theorem D3_eq {f g : σ → σ → σ → ℝ} (h : ∀ a b c, a ≠ b → a ≠ c → b ≠ c →
    f a b c + f b c a + f c a b = g a b c + g b c a + g c a b) : D3 f = D3 g := by
  have key : ∀ f : σ → σ → σ → ℝ, D3 (fun a b c => f a b c + f b c a + f c a b) = 3 * D3 f := by
    intro f
    rw [D3_add (fun a b c => f a b c + f b c a), D3_add f]
    have e1 := D3_cycle f
    have e2 := D3_cycle fun a b c => f b c a
    linarith
  have := D3_congr h
  rw [key, key] at this
  linarith

/-- A sum over one mode different from another. -/
theorem sum_off (f : σ → ℝ) (j : σ) : ∑ l, f l = f j + ∑ l, if l ≠ j then f l else 0 := by
  rw [← Fintype.sum_ite_eq j f, ← sum_add_distrib]
  refine sum_congr rfl fun l _ => ?_
  by_cases h : l = j
  · subst h; simp
  · simp [h, Ne.symm h]

theorem sum_off2 (f : σ → ℝ) {j l : σ} (hjl : j ≠ l) :
    ∑ m, f m = f j + f l + ∑ m, if m ≠ j ∧ m ≠ l then f m else 0 := by
  rw [sum_off f j, sum_off _ l, if_pos hjl.symm, add_assoc]
  congr 2
  refine sum_congr rfl fun m _ => ?_
  by_cases h : m = j <;> by_cases h' : m = l <;> simp [h, h']

theorem sum2_sort (f : σ → σ → ℝ) : ∑ a, ∑ b, f a b = ∑ a, f a a + D2 f := by
  unfold D2
  rw [← sum_add_distrib]
  refine sum_congr rfl fun a _ => ?_
  rw [sum_off _ a]
  congr 1
  exact sum_congr rfl fun b _ => by simp only [ne_comm]

theorem D2_sum (f : σ → σ → σ → ℝ) :
    D2 (fun a b => ∑ c, f a b c) = D2 (fun a b => f a b a + f a b b) + D3 f := by
  unfold D2 D3
  rw [← sum_add_distrib]
  refine sum_congr rfl fun a _ => ?_
  rw [← sum_add_distrib]
  refine sum_congr rfl fun b _ => ?_
  by_cases h : a = b
  · simp [h]
  · rw [if_pos h, if_pos h]
    refine (sum_off2 (f a b) h).trans ?_
    refine congrArg₂ (· + ·) rfl (sum_congr rfl fun c _ => ?_)
    have : (a ≠ b ∧ a ≠ c ∧ b ≠ c) ↔ (c ≠ a ∧ c ≠ b) :=
      ⟨fun h => ⟨h.2.1.symm, h.2.2.symm⟩, fun h' => ⟨h, h'.1.symm, h'.2.symm⟩⟩
    simp only [this]

/-- A triple sum, sorted by which modes are equal. -/
theorem sum3_sort (h : σ → σ → σ → ℝ) : ∑ a, ∑ b, ∑ c, h a b c =
    ∑ i, h i i i + D2 (fun l j => h l l j + h l j l + h j l l) + D3 h := by
  rw [sum2_sort fun a b => ∑ c, h a b c, D2_sum, sum2_sort fun a c => h a a c]
  rw [D2_add (fun l j => h l l j + h l j l), D2_add (fun l j => h l l j), D2_add (fun l j => h l j l),
    D2_swap fun a b => h a b b]
  ring

/-- A triple sum in which only one triple of different modes contributes, in any order. -/
theorem sum3_perm (h : σ → σ → σ → ℝ) {a b c : σ} (hab : a ≠ b) (hac : a ≠ c) (hbc : b ≠ c)
    (h0 : ∀ x y z, h x y z ≠ 0 → odd x + (odd y + odd z) = odd a + (odd b + odd c)) :
    ∑ x, ∑ y, ∑ z, h x y z = h a b c + h a c b + h b a c + h b c a + h c a b + h c b a := by
  have hz : ∀ x y z, h x y z ≠ 0 → (x, y, z) ∈ ({(a, b, c), (a, c, b), (b, a, c), (b, c, a), (c, a, b), (c, b, a)} :
      Finset (σ × σ × σ)) := by
    intro x y z hxyz
    have e := h0 x y z hxyz
    have val : ∀ u v : σ, odd u v = if v = u then 1 else 0 := by
      intro u v; simp [odd, Pi.single_apply]
    have mem : ∀ v, odd x v + (odd y v + odd z v) = (1 : ZMod 2) → v = x ∨ v = y ∨ v = z := by
      intro v hv
      by_contra hc
      push Not at hc
      simp [val, hc.1, hc.2.1, hc.2.2] at hv
    have ea := mem a (by have := congrFun e a; simpa [Pi.add_apply, val, hab, hac] using this)
    have eb := mem b (by have := congrFun e b; simpa [Pi.add_apply, val, hab.symm, hbc] using this)
    have ec := mem c (by have := congrFun e c; simpa [Pi.add_apply, val, hac.symm, hbc.symm] using this)
    simp only [mem_insert, mem_singleton, Prod.mk.injEq]
    rcases ea with rfl | rfl | rfl <;> rcases eb with rfl | rfl | rfl <;> rcases ec with rfl | rfl | rfl <;> simp_all
  have e : ∑ x, ∑ y, ∑ z, h x y z = ∑ t : σ × σ × σ, h t.1 t.2.1 t.2.2 := by
    rw [Fintype.sum_prod_type]
    exact sum_congr rfl fun x _ => (Fintype.sum_prod_type (fun t : σ × σ => h x t.1 t.2)).symm
  rw [e, ← sum_subset (subset_univ ({(a, b, c), (a, c, b), (b, a, c), (b, c, a), (c, a, b), (c, b, a)} :
      Finset (σ × σ × σ)))]
  · rw [sum_insert, sum_insert, sum_insert, sum_insert, sum_insert, sum_singleton]
    · ring
    all_goals simp [hab, hac, hbc, hab.symm, hac.symm, hbc.symm]
  · intro t _ ht
    by_contra hc
    exact ht (hz _ _ _ hc)

/-- A triple sum in which one mode contributes once and every other mode an even number of times. -/
theorem sum3_pair (h : σ → σ → σ → ℝ) (j : σ) (h0 : ∀ x y z, h x y z ≠ 0 → odd x + (odd y + odd z) = odd j) :
    ∑ x, ∑ y, ∑ z, h x y z = h j j j + ∑ l, if l ≠ j then h l l j + h l j l + h j l l else 0 := by
  have val : ∀ u v : σ, odd u v = if v = u then 1 else 0 := by
    intro u v; simp [odd, Pi.single_apply]
  rw [sum3_sort]
  have d3 : D3 h = 0 := by
    unfold D3
    refine sum_eq_zero fun x _ => sum_eq_zero fun y _ => sum_eq_zero fun z _ => ?_
    split
    · rename_i hd
      by_contra hc
      have e := h0 x y z hc
      have ex := congrFun e x
      have ey := congrFun e y
      simp only [Pi.add_apply, val, if_true, hd.1, hd.2.1, hd.2.2, hd.1.symm, if_false, add_zero, zero_add] at ex ey
      split at ex
      · split at ey
        · rename_i h1 h2; exact hd.1 (h1.trans h2.symm)
        · exact one_ne_zero ey
      · exact one_ne_zero ex
    · rfl
  have d1 : ∑ i, h i i i = h j j j := by
    refine Fintype.sum_eq_single j fun x hx => ?_
    by_contra hc
    have e := congrFun (h0 x x x hc) x
    simp only [Pi.add_apply, val, if_true, hx, if_false] at e
    revert e; decide
  rw [d3, d1, add_zero]
  congr 1
  unfold D2
  refine sum_congr rfl fun l _ => ?_
  have two : ∀ v : ZMod 2, v + v = 0 := by decide
  have key : ∀ x : σ, l ≠ x → x ≠ j → h l l x = 0 ∧ h l x l = 0 ∧ h x l l = 0 := by
    intro x hl hx
    refine ⟨?_, ?_, ?_⟩ <;> by_contra hc
    all_goals
      have e := congrFun (h0 _ _ _ hc) x
      simp [Pi.add_apply, val, hx, hl.symm] at e
  rw [Fintype.sum_eq_single j]
  intro x hx
  split
  · rename_i hl
    obtain ⟨a1, a2, a3⟩ := key x hl hx
    simp only [a1, a2, a3, add_zero]
  · rfl

/-- A quadruple sum in which every mode contributes an even number of times. -/
theorem sum4_pair (h : σ → σ → σ → σ → ℝ)
    (h0 : ∀ x y z t, h x y z t ≠ 0 → odd x + (odd y + (odd z + odd t)) = 0) :
    ∑ x, ∑ y, ∑ z, ∑ t, h x y z t = ∑ i, h i i i i + D2 fun i j => h i i j j + h i j i j + h i j j i := by
  have val : ∀ u v : σ, odd u v = if v = u then 1 else 0 := by
    intro u v; simp [odd, Pi.single_apply]
  have neg : ∀ u v : σ → ZMod 2, u + v = 0 → v = u := by
    intro u v huv
    funext s
    have := congrFun huv s
    simp only [Pi.add_apply, Pi.zero_apply] at this
    revert this
    generalize u s = a
    generalize v s = b
    revert a b; decide
  have : ∀ x, ∑ y, ∑ z, ∑ t, h x y z t = h x x x x + ∑ l, if l ≠ x then h x l l x + h x l x l + h x x l l else 0 :=
    fun x => sum3_pair (h x) x fun y z t hh => neg _ _ (h0 x y z t hh)
  rw [sum_congr rfl fun x _ => this x, sum_add_distrib]
  congr 1
  unfold D2
  refine sum_congr rfl fun x _ => sum_congr rfl fun l _ => ?_
  simp only [ne_comm (a := l)]
  split
  · ring
  · rfl

end Verif.Osc
