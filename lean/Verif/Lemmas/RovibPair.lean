import Verif.Lemmas.RovibForm

/-!
# The rotating states of a degenerate mode

Helpers for C110.
-/

namespace Verif.Osc

open Finset

section
variable {σ : Type} [Fintype σ] [DecidableEq σ]

/-- The parity of the quanta in the modes which `o` selects. -/
def chi (o : σ → ZMod 2) (m : σ → ℤ) : ZMod 2 := ∑ v, o v * ((m v : ℤ) : ZMod 2)

/-- `f` has amplitudes for states of parity `c` only. -/
def Sup (o : σ → ZMod 2) (c : ZMod 2) (f : (σ → ℤ) → ℝ) : Prop := ∀ m, f m ≠ 0 → chi o m = c

theorem chi_add (o : σ → ZMod 2) (m : σ → ℤ) (i : σ) : chi o (m + unit i) = chi o m + o i := by
  unfold chi
  simp only [Pi.add_apply, Int.cast_add, mul_add, sum_add_distrib, unit_at, Int.cast_ite, Int.cast_one, Int.cast_zero,
    mul_ite, mul_one, mul_zero, sum_ite_eq', sum_ite_eq, mem_univ, if_true]

theorem chi_sub (o : σ → ZMod 2) (m : σ → ℤ) (i : σ) : chi o (m - unit i) = chi o m + o i := by
  have h := chi_add o (m - unit i) i
  rw [sub_add_cancel] at h
  rw [h, add_assoc, CharTwo.add_self_eq_zero, add_zero]

theorem Sup.zero {o : σ → ZMod 2} {c : ZMod 2} {f : (σ → ℤ) → ℝ} (h : Sup o c f) {m : σ → ℤ} (hm : chi o m ≠ c) :
    f m = 0 := by
  by_contra hc
  exact hm (h m hc)

theorem sup_one (o : σ → ZMod 2) (n : σ → ℤ) : Sup o (chi o n) (one n) := by
  intro m hm
  unfold one at hm
  split at hm
  · rename_i h; rw [h]
  · exact absurd rfl hm

theorem Sup.step {o : σ → ZMod 2} {c : ZMod 2} {f : (σ → ℤ) → ℝ} (h : Sup o c f) (i : σ) {m : σ → ℤ}
    (hm : f (m - unit i) ≠ 0 ∨ f (m + unit i) ≠ 0) : chi o m = c + o i := by
  rcases hm with hm | hm
  · have := h _ hm
    rw [chi_sub] at this
    rw [← this, add_assoc, CharTwo.add_self_eq_zero, add_zero]
  · have := h _ hm
    rw [chi_add] at this
    rw [← this, add_assoc, CharTwo.add_self_eq_zero, add_zero]

theorem Sup.q {o : σ → ZMod 2} {c : ZMod 2} {f : (σ → ℤ) → ℝ} (h : Sup o c f) (i : σ) : Sup o (c + o i) (q i f) := by
  intro m hm
  refine h.step i ?_
  by_contra hc
  push Not at hc
  apply hm
  rw [q_apply, hc.1, hc.2]
  ring

theorem Sup.d {o : σ → ZMod 2} {c : ZMod 2} {f : (σ → ℤ) → ℝ} (h : Sup o c f) (i : σ) : Sup o (c + o i) (d i f) := by
  intro m hm
  refine h.step i ?_
  by_contra hc
  push Not at hc
  apply hm
  rw [d_apply, hc.1, hc.2]
  ring

theorem Sup.res {o : σ → ZMod 2} {c : ZMod 2} {f : (σ → ℤ) → ℝ} (h : Sup o c f) (w : σ → ℝ) (n : σ → ℤ) :
    Sup o c (res w n f) := by
  intro m hm
  apply h
  intro hc
  apply hm
  rw [res_apply, hc, zero_div]

theorem Sup.add {o : σ → ZMod 2} {c : ZMod 2} {f g : (σ → ℤ) → ℝ} (h : Sup o c f) (h' : Sup o c g) : Sup o c (f + g) := by
  intro m hm
  by_contra hc
  exact hm (by rw [Pi.add_apply, h.zero hc, h'.zero hc, add_zero])

theorem Sup.cub {o : σ → ZMod 2} {c t : ZMod 2} {f : (σ → ℤ) → ℝ} (h : Sup o c f) {φ : σ → σ → σ → ℝ}
    (hφ : ∀ i j k, φ i j k ≠ 0 → o i + o j + o k = t) : Sup o (c + t) (cub φ f) := by
  intro m hm
  by_contra hc
  apply hm
  rw [cub_at]
  have : ∀ i j k, φ i j k * Osc.q i (Osc.q j (Osc.q k f)) m = 0 := by
    intro i j k
    by_cases h0 : φ i j k = 0
    · rw [h0, zero_mul]
    · rw [(((h.q k).q j).q i).zero (m := m) (fun e => hc (by rw [e, ← hφ i j k h0]; ring)), mul_zero]
  simp only [this, sum_const_zero, mul_zero]

theorem Sup.lin {o : σ → ZMod 2} {c t : ZMod 2} {f : (σ → ℤ) → ℝ} (h : Sup o c f) {a : σ → ℝ}
    (ha : ∀ i, a i ≠ 0 → o i = t) : Sup o (c + t) (lin a f) := by
  intro m hm
  by_contra hc
  apply hm
  rw [lin_at]
  refine sum_eq_zero fun i _ => ?_
  by_cases h0 : a i = 0
  · rw [h0, zero_mul]
  · rw [(h.q i).zero (m := m) (fun e => hc (by rw [e, ← ha i h0])), mul_zero]

theorem Sup.ang {o : σ → ZMod 2} {c t : ZMod 2} {f : (σ → ℤ) → ℝ} (h : Sup o c f) (w : σ → ℝ) {s : σ → σ → ℝ}
    (hs : ∀ i j, s i j ≠ 0 → o i + o j = t) : Sup o (c + t) (ang w s f) := by
  intro m hm
  by_contra hc
  apply hm
  rw [ang_at]
  refine sum_eq_zero fun i _ => sum_eq_zero fun j _ => ?_
  by_cases h0 : s i j = 0
  · rw [h0, zero_mul, zero_mul]
  · rw [((h.d j).q i).zero (m := m) (fun e => hc (by rw [e, ← hs i j h0]; ring)), mul_zero]

/-- Of the states with the energy of one quantum in mode `k`, the angular momentum reaches that with one quantum in mode
`k2` only. -/
theorem ang_pair {w : σ → ℝ} (hp : ∀ i, 0 < w i) {s : σ → σ → ℝ} (hs : ∀ k, s k k = 0) {k k2 : σ}
    (hd : ∀ a, a ≠ k → w a = w k → a = k2) {F : (σ → ℤ) → ℝ} (h : ∀ m, gap w (unit k) m ≠ 0 → F m = 0)
    (hneg : ∀ m v, m v < 0 → F m = 0) : ang w s F (unit k) = F (unit k2) * ang w s (one (unit k2)) (unit k) := by
  rw [ang_at, ang_at, mul_sum]
  refine sum_congr rfl fun a _ => ?_
  rw [mul_sum]
  refine sum_congr rfl fun b _ => ?_
  by_cases hab : a = b
  · rw [hab, hs]; ring
  have key : ∀ x y : ℤ, (x = 1 ∨ x = -1) → (y = 1 ∨ y = -1) → F (unit k + x • unit a + y • unit b) =
      F (unit k2) * one (unit k2) (unit k + x • unit a + y • unit b) := by
    intro x y hx hy
    by_cases hm : unit k + x • unit a + y • unit b = unit k2
    · rw [hm, one_self, mul_one]
    · rw [one, if_neg hm, mul_zero]
      by_cases hg : gap w (unit k) (unit k + x • unit a + y • unit b) = 0
      swap
      · exact h _ hg
      rw [gap_add, gap_add, gap_self, zero_add] at hg
      have h1 := hp a
      have h2 := hp b
      have u1 : ∀ i j : σ, unit i j = if j = i then 1 else 0 := unit_at
      rcases hx with rfl | rfl <;> rcases hy with rfl | rfl <;> push_cast at hg
      · linarith
      · have e : w a = w b := by linarith
        by_cases hbk : b = k
        · subst hbk
          exfalso
          apply hm
          rw [hd a hab e]
          simp
        · refine hneg _ b ?_
          simp only [Pi.add_apply, Pi.smul_apply, u1, smul_eq_mul, if_neg hbk, if_neg (Ne.symm hab)]
          norm_num
      · have e : w b = w a := by linarith
        by_cases hak : a = k
        · subst hak
          exfalso
          apply hm
          rw [hd b (Ne.symm hab) e]
          simp
        · refine hneg _ a ?_
          simp only [Pi.add_apply, Pi.smul_apply, u1, smul_eq_mul, if_neg hak, if_neg hab]
          norm_num
      · linarith
  have p : ∀ m : σ → ℤ, ∀ i : σ, m + unit i = m + (1 : ℤ) • unit i := fun m i => by rw [one_smul]
  have t : ∀ m : σ → ℤ, ∀ i : σ, m - unit i = m + (-1 : ℤ) • unit i := fun m i => by rw [neg_one_smul, sub_eq_add_neg]
  simp only [q_apply, d_apply, p, t]
  rw [key 1 1 (by simp) (by simp), key 1 (-1) (by simp) (by simp), key (-1) 1 (by simp) (by simp),
    key (-1) (-1) (by simp) (by simp)]
  ring

theorem one_ne {n m : σ → ℤ} (v : σ) (h : m v ≠ n v) : one n m = 0 := if_neg fun e => h (by rw [e])

/-- The first-order coupling of the two components of a degenerate mode by the angular momentum. -/
theorem ang_couple {w : σ → ℝ} {s : σ → σ → ℝ} (hs : ∀ k l, s k l = -s l k) {k k2 : σ} (hk : k ≠ k2) (h0 : 0 < w k)
    (hw : w k = w k2) : ang w s (one (unit k2)) (unit k) = s k k2 := by
  have u1 : ∀ i j : σ, unit i j = if j = i then 1 else 0 := unit_at
  have zero : ∀ a b, ¬(a = k ∧ b = k2) → ¬(a = k2 ∧ b = k) → q a (d b (one (unit k2))) (unit k) = 0 := by
    intro a b h1 h2
    by_contra hc
    have hp := par_q (par_d (par_one (unit k2)) b) a _ hc
    have e1 := hp k
    have e2 := hp k2
    simp only [u1, odd, Pi.add_apply, Pi.single_apply, Pi.zero_apply, if_true, if_neg hk, if_neg hk.symm] at e1 e2
    by_cases a1 : k = a
    · subst a1
      by_cases b1 : k = b
      · subst b1; simp at e1
      · by_cases b2 : k2 = b
        · exact h1 ⟨rfl, b2.symm⟩
        · simp [hk.symm, b2] at e2
    · by_cases b1 : k = b
      · subst b1
        by_cases a2 : k2 = a
        · exact h2 ⟨a2.symm, rfl⟩
        · simp [hk.symm, a2] at e2
      · simp [a1, b1] at e1
  have r2 := rt_sq
  have v1 : q k (d k2 (one (unit k2))) (unit k) = 1 / 2 := by
    simp only [q_apply, d_apply]
    rw [show unit k - unit k + unit k2 = unit k2 by abel, one_self, one_ne (m := unit k - unit k - unit k2) k2,
      one_ne (m := unit k + unit k + unit k2) k, one_ne (m := unit k + unit k - unit k2) k]
    · simp only [Pi.sub_apply, Pi.add_apply, u1, if_neg hk.symm]
      push_cast
      linarith
    all_goals simp [u1, hk, hk.symm]
  have v2 : q k2 (d k (one (unit k2))) (unit k) = -(1 / 2) := by
    simp only [q_apply, d_apply]
    rw [show unit k + unit k2 - unit k = unit k2 by abel, one_self, one_ne (m := unit k - unit k2 + unit k) k,
      one_ne (m := unit k - unit k2 - unit k) k2, one_ne (m := unit k + unit k2 + unit k) k]
    · simp only [Pi.sub_apply, Pi.add_apply, u1, if_neg hk.symm]
      push_cast
      linarith
    all_goals simp [u1, hk, hk.symm]
  rw [ang_at, Fintype.sum_eq_add k k2 hk (fun a ha => sum_eq_zero fun b _ => by
    rw [zero a b (fun h => ha.1 h.1) (fun h => ha.2 h.1), mul_zero]),
    Fintype.sum_eq_single k2 (fun b hb => by rw [zero k b (fun h => hb h.2) (fun h => hk h.1), mul_zero]),
    Fintype.sum_eq_single k (fun b hb => by rw [zero k2 b (fun h => hk h.1.symm) (fun h => hb h.2), mul_zero]), v1, v2,
    ← hw, div_self h0.ne', Real.sqrt_one, hs k2 k]
  ring

end

variable {N : Nat}

theorem la_neg {f r : (Fin N → ℤ) → ℝ} {m : Fin N → ℤ} (h : f m = ((-1 : ℝ) • r) m) : f m + ((1 : ℝ) • r) m = 0 := by
  rw [h, Pi.smul_apply, Pi.smul_apply, smul_eq_mul, smul_eq_mul]
  ring

theorem chi_total_unit (k : Fin N) : chi (fun _ => 1) (unit k) = 1 := by
  have := chi_add (fun _ : Fin N => (1 : ZMod 2)) 0 k
  rw [zero_add] at this
  rw [this]
  simp [chi]

/-- The operators on the first-order wave functions, at one of the two states. -/
theorem half_local {w : Fin N → ℝ} {φ : Fin N → Fin N → Fin N → ℝ} {c : Fin N → ℝ} {s : Fin N → Fin N → ℝ} {k k2 : Fin N}
    (hw : NoRes w) (hp : ∀ i, 0 < w i) (hk : k ≠ k2) (he : w k = w k2) (hd : ∀ a, a ≠ k → w a = w k → a = k2)
    (sa : ∀ k l, s k l = -s l k) (h0 : gap w (unit k) (unit k2) = 0) {a b : (Fin N → ℤ) → ℝ}
    {ra rb : (Fin N → ℤ) → ℝ} (la : ∀ m, gap w (unit k) m ≠ 0 → a m = ((-1 : ℝ) • res w (unit k) ra) m)
    (lb : ∀ m, gap w (unit k) m ≠ 0 → b m = ((-1 : ℝ) • res w (unit k) rb) m)
    (nb : ∀ m v, m v < 0 → b m = ((-1 : ℝ) • res w (unit k) rb) m) :
    cub φ a (unit k) = -cub φ (res w (unit k) ra) (unit k) ∧ lin c a (unit k) = -lin c (res w (unit k) ra) (unit k) ∧
      ang w s b (unit k) = b (unit k2) * s k k2 - ang w s (res w (unit k) rb) (unit k) := by
  have s0 : ∀ k, s k k = 0 := fun k => by have := sa k k; linarith
  refine ⟨?_, ?_, ?_⟩
  · rw [cub_local hw φ _ la, cub_smul]; ring
  · rw [lin_local (fun i => (hp i).ne') c _ la, lin_smul]; ring
  · have := ang_pair hp s0 (k := k) (k2 := k2) hd (F := b + (1 : ℝ) • res w (unit k) rb)
      (fun m hm => by rw [Pi.add_apply, la_neg (lb m hm)]) (fun m v hm => by rw [Pi.add_apply, la_neg (nb m v hm)])
    rw [ang_lins, ang_smul, ang_couple sa hk (hp k) he, Pi.add_apply, Pi.smul_apply, res_apply, h0, div_zero, smul_zero,
      add_zero] at this
    linarith

/-- The energies of the rotating states of a degenerate mode with one quantum. -/
theorem pair_unique {w : Nat → ℝ} {φ : Nat → Nat → Nat → ℝ} {c : Nat → ℝ} {ζ : Nat → Nat → Nat → ℝ} {g : Nat → ℝ}
    {R2 S2 : Wave N → Wave N} {k k2 : Fin N} {n n' : Fin N → Nat} (hn : toInt n = unit k) (hn' : toInt n' = unit k2)
    {σ : ℝ} (hσ : σ ^ 2 = 1) {E0 E1 E2 : ℝ} (hw : NoRes fun i : Fin N => w i)
    (hp : ∀ i : Fin N, 0 < w i) (hk : k ≠ k2) (he : w k = w k2) (hd : ∀ a : Fin N, w a = w k → a = k ∨ a = k2)
    (hz : ∀ a, ∀ k l : Fin N, ζ k l a = -ζ l k a) (hR : R2 (σ • oscState n') = σ • R2 (oscState n'))
    (hS : amp (S2 (oscState n)) (unit k2) = 0) (hS' : amp (S2 (σ • oscState n')) (unit k) = 0)
    (h : SecondOrderL (harmonic w) (fun p => cubic φ p + linear c p)
      (fun p => ∑ a ∈ range 3, g a • angular w ζ a p) R2 S2 (oscState n) (σ • oscState n') E0 E1 E2) :
    E0 = level w (unit k) ∧ E1 = -(σ * ∑ a ∈ range 3, g a * ζ k k2 a) ∧
      E2 = (plain w φ c ζ g R2 n + plain w φ c ζ g R2 n') / 2 := by
  set W := fun i : Fin N => w i with hW
  set Φ := fun i j k : Fin N => φ i j k with hΦ
  set C := fun i : Fin N => c i with hC
  set s := fun k l : Fin N => ∑ a ∈ range 3, g a * ζ k l a with hs
  have sa : ∀ k l, s k l = -s l k := fun k l => by
    simp only [hs, ← sum_neg_distrib]
    exact sum_congr rfl fun a _ => by rw [hz a k l]; ring
  have s0 : ∀ k, s k k = 0 := fun k => by have := sa k k; linarith
  have lev : level w (unit k2) = level w (unit k) := by
    have := gap_level w (unit k) (unit k2)
    have e : gap W (unit k) (unit k2) = 0 := by
      have h1 := gap_add W (unit k) (unit k - unit k) 1 k2
      have h2 := gap_add W (unit k) (unit k) (-1) k
      rw [one_smul, show unit k - unit k + unit k2 = unit k2 by abel] at h1
      rw [neg_one_smul, ← sub_eq_add_neg, gap_self] at h2
      rw [h1, h2]
      simp only [hW]
      push_cast
      linarith
    linarith
  have gk : gap W (unit k) (unit k2) = 0 := by rw [gap_level, lev, sub_self]
  have gk' : gap W (unit k2) (unit k) = 0 := by rw [gap_level, lev, sub_self]
  have rese : ∀ f, res W (unit k2) f = res W (unit k) f := by
    intro f
    funext m
    rw [res_apply, res_apply, gap_level, gap_level, lev]
  have gape : ∀ m, gap W (unit k2) m = gap W (unit k) m := fun m => by rw [gap_level, gap_level, lev]
  obtain ⟨a1, b1, a2, b2, h0, -, h1, h1', h2, h2'⟩ := h
  have aI : amp (oscState n) = one (unit k) := by rw [amp_oscState, hn]
  have aI' : amp (oscState n') = one (unit k2) := by rw [amp_oscState, hn']
  have e0 := congrFun (congrArg amp h0) (unit k)
  rw [amp_harmonic, amp_smul, Pi.smul_apply, aI, one_self, smul_eq_mul, mul_one, mul_one] at e0
  -- parities
  have tc : ∀ i j k : Fin N, Φ i j k ≠ 0 → (fun _ => (1 : ZMod 2)) i + (fun _ => (1 : ZMod 2)) j + (fun _ => (1 : ZMod 2)) k =
    (1 : ZMod 2) := fun _ _ _ _ => show (1 + 1 + 1 : ZMod 2) = 1 by decide
  have tl : ∀ i : Fin N, C i ≠ 0 → (fun _ => (1 : ZMod 2)) i = (1 : ZMod 2) := fun _ _ => rfl
  have ta : ∀ i j : Fin N, s i j ≠ 0 → (fun _ => (1 : ZMod 2)) i + (fun _ => (1 : ZMod 2)) j = (0 : ZMod 2) :=
    fun _ _ _ => show (1 + 1 : ZMod 2) = 0 by decide
  have so : ∀ x : Fin N, Sup (fun _ => 1) 1 (one (unit x)) := fun x => by
    have := sup_one (fun _ => 1) (unit x)
    rwa [chi_total_unit] at this
  have odd1 : ∀ {f : (Fin N → ℤ) → ℝ} {t : ZMod 2} (x : Fin N), Sup (fun _ => 1) t f → t = 0 → f (unit x) = 0 := by
    intro f t x hf ht
    exact hf.zero (by rw [chi_total_unit, ht]; decide)
  have z1 : ∀ x y, cub Φ (one (unit x)) (unit y) = 0 := fun x y => odd1 y ((so x).cub tc) (by decide)
  have z2 : ∀ x y, lin C (one (unit x)) (unit y) = 0 := fun x y => odd1 y ((so x).lin tl) (by decide)
  have z3 : ∀ x y, cub Φ (res W (unit k) (ang W s (one (unit x)))) (unit y) = 0 :=
    fun x y => odd1 y ((((so x).ang W ta).res W _).cub tc) (by decide)
  have z4 : ∀ x y, lin C (res W (unit k) (ang W s (one (unit x)))) (unit y) = 0 :=
    fun x y => odd1 y ((((so x).ang W ta).res W _).lin tl) (by decide)
  have z5 : ∀ x y, ang W s (res W (unit k) (cub Φ (one (unit x)))) (unit y) = 0 :=
    fun x y => odd1 y ((((so x).cub tc).res W _).ang W ta) (by decide)
  have z6 : ∀ x y, ang W s (res W (unit k) (lin C (one (unit x)))) (unit y) = 0 :=
    fun x y => odd1 y ((((so x).lin tl).res W _).ang W ta) (by decide)
  -- first order
  let ra := cub Φ (one (unit k)) + lin C (one (unit k)) + (-σ) • ang W s (one (unit k2))
  let rb := σ • (cub Φ (one (unit k2)) + lin C (one (unit k2))) + ang W s (one (unit k))
  have aS : amp (σ • oscState n') = σ • one (unit k2) := by rw [amp_smul, aI']
  have wa : amp (cubic φ (oscState n) + linear c (oscState n) - ∑ a ∈ range 3, g a • angular w ζ a (σ • oscState n')) =
      ra := by
    funext m
    rw [amp_sub, amp_add, amp_cubic, amp_linear, amp_angulars, aI, aS]
    simp only [ra, Pi.add_apply, Pi.sub_apply, Pi.smul_apply]
    rw [ang_smul, smul_eq_mul]
    ring
  have wb : amp (cubic φ (σ • oscState n') + linear c (σ • oscState n') + ∑ a ∈ range 3, g a • angular w ζ a (oscState n)) =
      rb := by
    funext m
    rw [amp_add, amp_add, amp_cubic, amp_linear, amp_angulars, aI, aS]
    simp only [rb, Pi.add_apply, Pi.smul_apply]
    rw [cub_smul, lin_smul, smul_eq_mul]
    ring
  have f1 : ∀ m, level w m * amp a1 m + ra m = E0 * amp a1 m + E1 * one (unit k) m := by
    intro m
    have := congrFun (congrArg amp h1) m
    rwa [amp_add, wa, Pi.add_apply, amp_harmonic, amp_add, amp_smul, amp_smul, aI] at this
  have f1' : ∀ m, level w m * amp b1 m + rb m = E0 * amp b1 m + E1 * (σ * one (unit k2) m) := by
    intro m
    have := congrFun (congrArg amp h1') m
    rwa [amp_add, wb, Pi.add_apply, amp_harmonic, amp_add, amp_smul, amp_smul, aS] at this
  have cpl : ang W s (one (unit k2)) (unit k) = s k k2 := ang_couple sa hk (hp k) he
  have cpl' : ang W s (one (unit k)) (unit k2) = s k2 k := ang_couple sa hk.symm (hp k2) he.symm
  have e1 : E1 = -(σ * s k k2) := by
    have := f1 (unit k)
    simp only [ra, Pi.add_apply, Pi.smul_apply, smul_eq_mul, z1, z2, cpl, one_self] at this
    rw [e0] at this
    linarith
  have la : ∀ m, gap W (unit k) m ≠ 0 → amp a1 m = ((-1 : ℝ) • res W (unit k) ra) m := by
    intro m hm
    have hmk : m ≠ unit k := by rintro rfl; exact hm (gap_self _ _)
    have := f1 m
    rw [one, if_neg hmk, mul_zero, add_zero, ← e0] at this
    rw [Pi.smul_apply, res_apply, gap_level, smul_eq_mul]
    rw [gap_level] at hm
    field_simp
    linarith
  have lb : ∀ m, gap W (unit k) m ≠ 0 → amp b1 m = ((-1 : ℝ) • res W (unit k) rb) m := by
    intro m hm
    have hmk : m ≠ unit k2 := by rintro rfl; exact hm gk
    have := f1' m
    rw [one, if_neg hmk, mul_zero, mul_zero, add_zero, ← e0] at this
    rw [Pi.smul_apply, res_apply, gap_level, smul_eq_mul]
    rw [gap_level] at hm
    field_simp
    linarith
  have na : ∀ m v, m v < 0 → amp a1 m = ((-1 : ℝ) • res W (unit k) ra) m := neg_local a1 _ wa
  have nb : ∀ m v, m v < 0 → amp b1 m = ((-1 : ℝ) • res W (unit k) rb) m := neg_local b1 _ wb
  obtain ⟨r1, r2, r3⟩ := half_local (φ := Φ) (c := C) (s := s) hw hp hk he
    (fun a h1 h2 => (hd a h2).resolve_left h1) sa gk la lb nb
  obtain ⟨i1, i2, i3⟩ := half_local (w := W) (φ := Φ) (c := C) (s := s) (k := k2) (k2 := k) (a := amp b1) (b := amp a1)
    (ra := rb) (rb := ra) hw hp hk.symm he.symm
    (fun a h1 h2 => (hd a (h2.trans he.symm)).resolve_right h1) sa gk'
    (fun m hm => by rw [rese]; exact lb m (by rwa [gape] at hm)) (fun m hm => by rw [rese]; exact la m (by rwa [gape] at hm))
    (fun m v hm => by rw [rese]; exact na m v hm)
  rw [rese] at i1 i2 i3
  -- second order
  have f2 := congrFun (congrArg amp h2) (unit k)
  rw [amp_add, Pi.add_apply, amp_add, Pi.add_apply, amp_harmonic, amp_sub, Pi.sub_apply, amp_add, Pi.add_apply, amp_cubic,
    amp_linear, amp_angulars, amp_sub, Pi.sub_apply, hS', amp_add, amp_add, amp_smul, amp_smul, amp_smul, aI] at f2
  simp only [Pi.add_apply, Pi.smul_apply, one_self, smul_eq_mul] at f2
  have f2' := congrFun (congrArg amp h2') (unit k2)
  rw [hR, amp_add, Pi.add_apply, amp_add, Pi.add_apply, amp_harmonic, amp_add, Pi.add_apply, amp_add, Pi.add_apply, amp_cubic,
    amp_linear, amp_angulars, amp_add, Pi.add_apply, hS, amp_smul, amp_add, amp_add, amp_smul, amp_smul, amp_smul, amp_smul,
    aI'] at f2'
  simp only [Pi.add_apply, Pi.smul_apply, one_self, smul_eq_mul] at f2'
  change _ + (cub Φ _ _ + lin C _ _ - ang W s _ _) + _ = _ at f2
  change _ + (cub Φ _ _ + lin C _ _ + ang W s _ _) + _ = _ at f2'
  rw [r1, r2, r3, e0] at f2
  rw [i1, i2, i3, lev, e0] at f2'
  simp only [ra, rb, map_add, map_smul, cub_lins, lin_lins, ang_lins, cub_smul, lin_smul, ang_smul, z3, z4, z5, z6] at f2 f2'
  refine ⟨e0.symm, e1, ?_⟩
  have pl : ∀ (x : Fin N) (v : Fin N → Nat), toInt v = unit x → plain w φ c ζ g R2 v =
      -(cub Φ (res W (unit x) (cub Φ (one (unit x)))) (unit x) + cub Φ (res W (unit x) (lin C (one (unit x)))) (unit x) +
        lin C (res W (unit x) (cub Φ (one (unit x)))) (unit x) + lin C (res W (unit x) (lin C (one (unit x)))) (unit x)) +
      ang W s (res W (unit x) (ang W s (one (unit x)))) (unit x) + amp (R2 (oscState v)) (unit x) := by
    intro x v hv
    unfold plain
    rw [hv]
  rw [pl k n hn, pl k2 n' hn', rese, rese, rese]
  have hs2 := sa k2 k
  rw [e1] at f2 f2'
  rw [hs2] at f2'
  have hσ' : σ = 1 ∨ σ = -1 := by
    have : (σ - 1) * (σ + 1) = 0 := by linear_combination hσ
    rcases mul_eq_zero.1 this with h | h
    · left; linarith
    · right; linarith
  rcases hσ' with h | h <;> rw [h] at f2 f2'
  · linear_combination -(f2 + f2') / 2
  · linear_combination -(f2 - f2') / 2

theorem coord_smul (i : Fin N) (c : ℝ) (p : Wave N) : coord i (c • p) = c • coord i p := by
  unfold coord
  rw [mul_smul_comm]

theorem slope_smul (i : Fin N) (c : ℝ) (p : Wave N) : slope i (c • p) = c • slope i p := by
  unfold slope
  rw [mul_smul_comm, (MvPolynomial.pderiv i).map_smul, smul_sub]

theorem quartic_smul (ψ : Nat → Nat → Nat → Nat → ℝ) (c : ℝ) (p : Wave N) : quartic ψ (c • p) = c • quartic ψ p := by
  unfold quartic
  simp only [coord_smul, smul_comm _ c, ← smul_sum]

theorem angular_smul (w : Nat → ℝ) (ζ : Nat → Nat → Nat → ℝ) (a : Nat) (c : ℝ) (p : Wave N) :
    angular w ζ a (c • p) = c • angular w ζ a p := by
  unfold angular
  simp only [slope_smul, coord_smul, smul_comm _ c, ← smul_sum]

theorem coriolis_smul (w : Nat → ℝ) (ζ : Nat → Nat → Nat → ℝ) (B : Nat → ℝ) (c : ℝ) (p : Wave N) :
    coriolis w ζ B (c • p) = c • coriolis w ζ B p := by
  unfold coriolis
  simp only [angular_smul, smul_comm _ c, ← smul_sum, smul_neg]

theorem quadratic_smul (a : Nat → Nat → ℝ) (c : ℝ) (p : Wave N) : quadratic a (c • p) = c • quadratic a p := by
  unfold quadratic
  simp only [coord_smul, smul_comm _ c, ← smul_sum]

/-- One quantum in mode `k`. -/
def single (k j : Nat) : Nat := if j = k then 1 else 0

theorem single_unit (k : Fin N) : toInt (fun i : Fin N => single k i) = unit k := by
  funext i
  simp [toInt, single, unit_at, Fin.ext_iff]

/-- The second-order energy of the state with the quanta `n`. -/
noncomputable def rotForm (N : Nat) (κ : ℝ) (I : Nat → ℝ) (A : Nat → Nat → Nat → ℝ) (w : Nat → ℝ)
    (φ : Nat → Nat → Nat → ℝ) (ψ : Nat → Nat → Nat → Nat → ℝ) (ζ : Nat → Nat → Nat → ℝ) (J : Nat → ℝ) (n : Nat → Nat) : ℝ :=
  (∑ k ∈ range N, ∑ l ∈ range (k + 1), xSpec (fun _ _ _ => False) N w φ ψ ζ (fun a => κ / I a) k l *
        ((n k : ℝ) + 1 / 2) * ((n l : ℝ) + 1 / 2)
      + e0Spec (fun _ _ _ => False) (List.range N) w φ ψ
      - 1 / 2 * ∑ k ∈ range N, ∑ l ∈ range k, ∑ a ∈ range 3, κ / I a * ζ k l a ^ 2) +
      ∑ a ∈ range 3, ∑ b ∈ range 3, rotSecond N κ I A w φ ζ n a b * J a * J b -
      κ ^ 3 * ∑ k ∈ range N, (∑ a ∈ range 3, ∑ b ∈ range 3, A k a b / (I a * I b) * J a * J b) ^ 2 / w k ^ 2

/-- The energies of the rotating states of a degenerate mode with one quantum. -/
theorem pair_formula {κ : ℝ} {I : Nat → ℝ} {A : Nat → Nat → Nat → ℝ} {w : Nat → ℝ} {φ : Nat → Nat → Nat → ℝ}
    {ψ : Nat → Nat → Nat → Nat → ℝ} {ζ : Nat → Nat → Nat → ℝ} (hκ : 0 ≤ κ)
    (h3 : Symm3 N φ) (h4 : Symm4 N ψ) (hz : ∀ a k l, k < N → l < N → ζ k l a = -ζ l k a) (hp : ∀ i < N, 0 < w i)
    (hw : NoResonance N w) {J : Nat → ℝ} {k k2 : Nat} (hk : k < N) (hk2 : k2 < N) (hne : k ≠ k2) (he : w k = w k2)
    (hd : ∀ i < N, w i = w k → i = k ∨ i = k2) {σ : ℝ} (hσ : σ ^ 2 = 1) {E0 E1 E2 : ℝ}
    (h : RotPairEnergy κ I A w φ ψ ζ J (fun i : Fin N => single k i) (fun i : Fin N => single k2 i) σ E0 E1 E2) :
    E0 = ∑ i ∈ range N, w i * ((single k i : ℝ) + 1 / 2) ∧
    E1 = -(σ * ∑ a ∈ range 3, 2 * (κ / I a) * J a * ζ k k2 a) ∧
    E2 = (rotForm N κ I A w φ ψ ζ J (single k) + rotForm N κ I A w φ ψ ζ J (single k2)) / 2 := by
  have S2 : ∀ x y : Fin N, amp (∑ b ∈ range 3, linear (fun k => 2 * ∑ a ∈ range 3, recip1 κ I w A a b k * J a)
      (angular w ζ b (oscState fun i : Fin N => single x i))) (unit y) = 0 := by
    intro x y
    rw [amp_sum, Finset.sum_apply]
    refine sum_eq_zero fun b _ => ?_
    rw [amp_linear, amp_angular, amp_oscState, single_unit]
    have so := sup_one (fun _ => 1) (unit x)
    rw [chi_total_unit] at so
    refine ((so.ang (fun i : Fin N => w i) (t := 0) fun _ _ _ => show (1 + 1 : ZMod 2) = 0 by decide).lin (t := 1)
      fun _ _ => rfl).zero ?_
    rw [chi_total_unit]
    decide
  unfold RotPairEnergy at h
  have key := fun hR hS hS' => pair_unique (k := ⟨k, hk⟩) (k2 := ⟨k2, hk2⟩) (single_unit ⟨k, hk⟩) (single_unit ⟨k2, hk2⟩) hσ
    hw.fin (fun i => hp i i.2) (fun e => hne (congrArg Fin.val e)) he
    (fun a ha => (hd a a.2 ha).imp (fun e => Fin.ext e) (fun e => Fin.ext e)) (fun a k l => hz a k l k.2 l.2) hR hS hS' h
  obtain ⟨e0, e1, e2⟩ := key
    (by simp only [quartic_smul, coriolis_smul, quadratic_smul, smul_comm _ σ, ← smul_add])
    (S2 ⟨k, hk⟩ ⟨k2, hk2⟩)
    (by
      simp only [angular_smul]
      have := S2 ⟨k2, hk2⟩ ⟨k, hk⟩
      have e : ∀ (c : Nat → ℝ) (p : Wave N), linear c (σ • p) = σ • linear c p := by
        intro c p
        unfold linear
        simp only [coord_smul, smul_comm _ σ, ← smul_sum]
      simp only [e, ← smul_sum]
      rw [amp_smul, Pi.smul_apply, this, smul_zero])
  refine ⟨e0.trans ?_, e1, e2.trans ?_⟩
  · rw [← single_unit ⟨k, hk⟩]
    exact level_range w (single k)
  · rw [rot_value hκ h3 h4 hz hp J (single k), rot_value hκ h3 h4 hz hp J (single k2)]
    rfl

end Verif.Osc
