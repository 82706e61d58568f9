import Verif.Lemmas.Mask

/-!
# The effective Hamiltonian of two states

Helpers for C104.
-/

namespace Verif.Osc

open Finset

section
variable {σ : Type} [Fintype σ] [DecidableEq σ]

/-- The total number of quanta, relative to `n`, has the parity `s`. -/
def Tot (n : σ → ℤ) (s : ZMod 2) (f : (σ → ℤ) → ℝ) : Prop := ∀ m, f m ≠ 0 → ((∑ v, (m v - n v) : ℤ) : ZMod 2) = s

theorem tot_one (n : σ → ℤ) : Tot n 0 (one n) := by
  intro m hm
  unfold one at hm
  split at hm
  · rename_i h; subst h; simp
  · exact absurd rfl hm

theorem tot_shift (n m : σ → ℤ) (i : σ) (x : ℤ) : ∑ v, ((m + x • unit i) v - n v) = ∑ v, (m v - n v) + x := by
  have : ∀ v, (m + x • unit i) v - n v = (m v - n v) + x * unit i v := fun v => by
    simp only [Pi.add_apply, Pi.smul_apply, smul_eq_mul]; ring
  simp only [this, sum_add_distrib, ← mul_sum, sum_unit, mul_one]

theorem tot_step {n : σ → ℤ} {s : ZMod 2} {f : (σ → ℤ) → ℝ} (h : Tot n s f) (i : σ) (m : σ → ℤ)
    (hm : f (m - unit i) ≠ 0 ∨ f (m + unit i) ≠ 0) : ((∑ v, (m v - n v) : ℤ) : ZMod 2) = s + 1 := by
  have t : (1 : ZMod 2) + 1 = 0 := by decide
  rcases hm with hm | hm
  · have := h _ hm
    rw [show m - unit i = m + (-1 : ℤ) • unit i by rw [neg_one_smul, sub_eq_add_neg], tot_shift] at this
    rw [← this]; push_cast; ring
  · have := h _ hm
    rw [show m + unit i = m + (1 : ℤ) • unit i by rw [one_smul], tot_shift] at this
    rw [← this]; push_cast; rw [add_assoc, t, add_zero]

theorem tot_q {n : σ → ℤ} {s : ZMod 2} {f : (σ → ℤ) → ℝ} (h : Tot n s f) (i : σ) : Tot n (s + 1) (q i f) := by
  intro m hm
  apply tot_step h i
  by_contra hc
  push Not at hc
  apply hm
  rw [q_apply, hc.1, hc.2]
  ring

theorem tot_d {n : σ → ℤ} {s : ZMod 2} {f : (σ → ℤ) → ℝ} (h : Tot n s f) (i : σ) : Tot n (s + 1) (d i f) := by
  intro m hm
  apply tot_step h i
  by_contra hc
  push Not at hc
  apply hm
  rw [d_apply, hc.1, hc.2]
  ring

theorem tot_smul {n : σ → ℤ} {s : ZMod 2} {f : (σ → ℤ) → ℝ} (h : Tot n s f) (c : ℝ) : Tot n s (c • f) := by
  intro m hm
  exact h m fun e => hm (by rw [Pi.smul_apply, e, smul_zero])

theorem tot_sum {ι : Type} {n : σ → ℤ} {s : ZMod 2} (t : Finset ι) {f : ι → (σ → ℤ) → ℝ} (h : ∀ i, Tot n s (f i)) :
    Tot n s (∑ i ∈ t, f i) := by
  intro m hm
  rw [Finset.sum_apply] at hm
  obtain ⟨i, -, hi⟩ := exists_ne_zero_of_sum_ne_zero hm
  exact h i m hi

theorem tot_cub {n : σ → ℤ} {s : ZMod 2} {f : (σ → ℤ) → ℝ} (h : Tot n s f) (φ : σ → σ → σ → ℝ) : Tot n (s + 1) (cub φ f) := by
  refine tot_smul (tot_sum _ fun i => tot_sum _ fun j => tot_sum _ fun k => tot_smul ?_ _) _
  have := tot_q (tot_q (tot_q h k) j) i
  rwa [show s + 1 + 1 + 1 = s + 1 by
    have t : (1 : ZMod 2) + 1 = 0 := by decide
    rw [add_assoc s 1 1, t, add_zero]] at this

theorem tot_qua {n : σ → ℤ} {s : ZMod 2} {f : (σ → ℤ) → ℝ} (h : Tot n s f) (ψ : σ → σ → σ → σ → ℝ) : Tot n s (qua ψ f) := by
  refine tot_smul (tot_sum _ fun i => tot_sum _ fun j => tot_sum _ fun k => tot_sum _ fun l => tot_smul ?_ _) _
  have := tot_q (tot_q (tot_q (tot_q h l) k) j) i
  rwa [show s + 1 + 1 + 1 + 1 = s by
    have t : (1 : ZMod 2) + 1 = 0 := by decide
    rw [add_assoc s 1 1, t, add_zero, add_assoc s 1 1, t, add_zero]] at this

theorem tot_ang {n : σ → ℤ} {s : ZMod 2} {f : (σ → ℤ) → ℝ} (h : Tot n s f) (w : σ → ℝ) (ζ : σ → σ → ℝ) : Tot n s (ang w ζ f) := by
  refine tot_sum _ fun i => tot_sum _ fun j => tot_smul ?_ _
  have := tot_q (tot_d h j) i
  rwa [show s + 1 + 1 = s by
    have t : (1 : ZMod 2) + 1 = 0 := by decide
    rw [add_assoc s 1 1, t, add_zero]] at this

theorem tot_zero {n m : σ → ℤ} {s : ZMod 2} {f : (σ → ℤ) → ℝ} (h : Tot n s f)
    (hm : ((∑ v, (m v - n v) : ℤ) : ZMod 2) ≠ s) : f m = 0 := by
  by_contra hc
  exact hm (h m hc)

end

variable {N : Nat}

theorem mem_others {a b : Fin N → Nat} {p : Wave N} (h : p ∈ others a b) :
    amp p (toInt a) = 0 ∧ amp p (toInt b) = 0 := by
  unfold others at h
  have inj : ∀ x y : Fin N → Nat, toInt x = toInt y → x = y := by
    intro x y e
    funext i
    have := congrFun e i
    simpa [toInt] using this
  induction h using Submodule.span_induction with
  | mem x hx =>
    obtain ⟨m, ha, hb, rfl⟩ := hx
    rw [amp_oscState, one, one, if_neg fun e => ha (inj _ _ e).symm, if_neg fun e => hb (inj _ _ e).symm]
    exact ⟨rfl, rfl⟩
  | zero => rw [amp_zero]; exact ⟨rfl, rfl⟩
  | add x y _ _ hx hy => rw [amp_add, Pi.add_apply, Pi.add_apply, hx.1, hx.2, hy.1, hy.2]; simp
  | smul c x _ hx => rw [amp_smul, Pi.smul_apply, Pi.smul_apply, hx.1, hx.2]; simp

theorem toInt_inj {x y : Fin N → Nat} (e : toInt x = toInt y) : x = y := by
  funext i
  have := congrFun e i
  simpa [toInt] using this

/-- What the equations for the effective Hamiltonian say about amplitudes. -/
theorem eff_parts {w : Nat → ℝ} {φ : Nat → Nat → Nat → ℝ} {ψ : Nat → Nat → Nat → Nat → ℝ} {ζ : Nat → Nat → Nat → ℝ}
    {B : Nat → ℝ} {a b : Fin N → Nat} {h0 h1 h2 : Fin 2 → Fin 2 → ℝ} (hab : a ≠ b)
    (h : VibEffective w φ ψ ζ B a b h0 h1 h2) :
    let s : Fin 2 → Fin N → Nat := ![a, b]
    let F : Fin N → Fin N → Fin N → ℝ := fun i j k => φ i j k
    (∀ i j, h0 i j = if i = j then level w (toInt (s j)) else 0) ∧
    (∀ i j, h1 i j = cub F (one (toInt (s j))) (toInt (s i))) ∧
    ∃ f : Fin 2 → (Fin N → ℤ) → ℝ, (∀ i j, f j (toInt (s i)) = 0) ∧ (∀ j m v, m v < 0 → f j m = 0) ∧
      (∀ j m, m ≠ toInt a → m ≠ toInt b → (level w m - level w (toInt (s j))) * f j m = -cub F (one (toInt (s j))) m) ∧
      ∀ i j, h2 i j = cub F (f j) (toInt (s i)) +
        amp (quartic ψ (oscState (s j)) + coriolis w ζ B (oscState (s j))) (toInt (s i)) := by
  intro s F
  obtain ⟨p1, p2, hK, h⟩ := h
  have hs : ∀ j, (![oscState a, oscState b] : Fin 2 → Wave N) j = oscState (s j) := by
    intro j; fin_cases j <;> rfl
  simp only [hs] at h
  have inj : ∀ i j, toInt (s i) = toInt (s j) → i = j := by
    intro i j e
    have := toInt_inj e
    fin_cases i <;> fin_cases j
    · rfl
    · exact absurd this hab
    · exact absurd this.symm hab
    · rfl
  have o : ∀ i j, one (toInt (s i)) (toInt (s j)) = if i = j then 1 else 0 := by
    intro i j
    by_cases e : i = j
    · rw [if_pos e, e]; exact one_self _
    · rw [if_neg e, one, if_neg fun e' => e (inj _ _ e').symm]
  have z1 : ∀ i j, amp (p1 j) (toInt (s i)) = 0 := by
    intro i j
    fin_cases i
    · exact (mem_others (hK j).1).1
    · exact (mem_others (hK j).1).2
  have z2 : ∀ i j, amp (p2 j) (toInt (s i)) = 0 := by
    intro i j
    fin_cases i
    · exact (mem_others (hK j).2).1
    · exact (mem_others (hK j).2).2
  have e0 : ∀ i j, h0 i j = if i = j then level w (toInt (s j)) else 0 := by
    intro i j
    have := congrFun (congrArg amp (h j).1) (toInt (s i))
    rw [amp_harmonic, amp_sum, amp_oscState, Finset.sum_apply, o] at this
    simp only [amp_smul, Pi.smul_apply, amp_oscState, smul_eq_mul, o, mul_ite, mul_one, mul_zero, sum_ite_eq', mem_univ,
      if_true] at this
    rw [← this]
    by_cases e : i = j
    · rw [if_pos e, if_pos e.symm, e]
    · rw [if_neg e, if_neg (Ne.symm e)]
  have a1 : ∀ j m, level w m * amp (p1 j) m + cub F (one (toInt (s j))) m =
      level w (toInt (s j)) * amp (p1 j) m + ∑ i, h1 i j * one (toInt (s i)) m := by
    intro j m
    have := congrFun (congrArg amp (h j).2.1) m
    rw [amp_add, Pi.add_apply, amp_harmonic, amp_cubic, amp_oscState, amp_sum, Finset.sum_apply] at this
    simp only [amp_add, Pi.add_apply, amp_smul, Pi.smul_apply, amp_oscState, smul_eq_mul, sum_add_distrib, e0, ite_mul,
      zero_mul, sum_ite_eq', mem_univ, if_true] at this
    exact this
  have e1 : ∀ i j, h1 i j = cub F (one (toInt (s j))) (toInt (s i)) := by
    intro i j
    have := a1 j (toInt (s i))
    simp only [z1, mul_zero, zero_add, o, mul_ite, mul_one, sum_ite_eq', mem_univ, if_true] at this
    exact this.symm
  refine ⟨e0, e1, fun j => amp (p1 j), z1, fun j m v hv => amp_neg _ hv, fun j m ma mb => ?_, fun i j => ?_⟩
  · have := a1 j m
    have oz : ∀ i, one (toInt (s i)) m = 0 := by
      intro i
      rw [one, if_neg]
      fin_cases i
      · exact ma
      · exact mb
    simp only [oz, mul_zero, sum_const_zero, add_zero] at this
    linarith
  · have := congrFun (congrArg amp (h j).2.2) (toInt (s i))
    rw [amp_add, Pi.add_apply, amp_add, Pi.add_apply, amp_harmonic, amp_cubic, amp_sum, Finset.sum_apply] at this
    simp only [amp_add, Pi.add_apply, amp_smul, Pi.smul_apply, amp_oscState, smul_eq_mul, sum_add_distrib, z1, z2, mul_zero,
      sum_const_zero, zero_add, o, mul_ite, mul_one, sum_ite_eq', mem_univ, if_true] at this
    rw [amp_add, Pi.add_apply]
    exact this.symm

theorem cub_neg {φ : Nat → Nat → Nat → ℝ} (n : Fin N → Nat) {m : Fin N → ℤ} {v : Fin N} (h : m v < 0) :
    cub (fun i j k : Fin N => φ i j k) (one (toInt n)) m = 0 := by
  rw [← amp_oscState, ← amp_cubic]
  exact amp_neg _ h

theorem nonneg_toInt {m : Fin N → ℤ} (h : ∀ v, 0 ≤ m v) : ∃ x : Fin N → Nat, m = toInt x :=
  ⟨fun v => (m v).toNat, funext fun v => by simp [toInt, h v]⟩

/-- The matrix of the effective Hamiltonian. -/
theorem eff_value {R : Nat → Nat → Nat → Prop}
    {w : Nat → ℝ} {φ : Nat → Nat → Nat → ℝ} {ψ : Nat → Nat → Nat → Nat → ℝ} {ζ : Nat → Nat → Nat → ℝ}
    {B : Nat → ℝ} {a b : Fin N → Nat} {h0 h1 h2 : Fin 2 → Fin 2 → ℝ}
    (hpar : ((∑ v, (toInt a v - toInt b v) : ℤ) : ZMod 2) = 1)
    (alone : ∀ m, m ≠ a → m ≠ b → level w (toInt m) ≠ level w (toInt a) ∧ level w (toInt m) ≠ level w (toInt b))
    (iso : ∀ m : Fin N → Nat, (Shift (fun a b c : Fin N => R a b c) (toInt m - toInt a) ∨
      Shift (fun a b c : Fin N => R a b c) (toInt m - toInt b)) → m = a ∨ m = b)
    (hab : Shift (fun a b c : Fin N => R a b c) (toInt a - toInt b))
    (h : VibEffective w φ ψ ζ B a b h0 h1 h2) :
    let s : Fin 2 → Fin N → Nat := ![a, b]
    let F : Fin N → Fin N → Fin N → ℝ := fun i j k => φ i j k
    (∀ i j, h0 i j = if i = j then level w (toInt (s j)) else 0) ∧
    (∀ i j, h1 i j = if i = j then 0 else cub F (one (toInt (s j))) (toInt (s i))) ∧
    (∀ i j, h2 i j = if i = j then -secondR R w φ (toInt (s j)) + expect2 w ψ ζ B (toInt (s j)) else 0) := by
  intro s F
  have hne : a ≠ b := by
    rintro rfl
    simp at hpar
  obtain ⟨e0, e1, f, z1, neg, first, e2⟩ := eff_parts hne h
  have par : ∀ i j, i ≠ j → ((∑ v, (toInt (s i) v - toInt (s j) v) : ℤ) : ZMod 2) = 1 := by
    intro i j hij
    fin_cases i <;> fin_cases j
    · exact absurd rfl hij
    · exact hpar
    · have e : ∑ v, (toInt (s 1) v - toInt (s 0) v) = -∑ v, (toInt a v - toInt b v) := by
        rw [← sum_neg_distrib]
        exact sum_congr rfl fun v _ => by simp [s]
      show ((∑ v, (toInt (s 1) v - toInt (s 0) v) : ℤ) : ZMod 2) = 1
      rw [e, Int.cast_neg, hpar]
      decide
    · exact absurd rfl hij
  have al : ∀ m : Fin N → Nat, m ≠ a → m ≠ b → ∀ j, level w (toInt m) - level w (toInt (s j)) ≠ 0 := by
    intro m ha hb j
    fin_cases j
    · exact sub_ne_zero.2 (alone m ha hb).1
    · exact sub_ne_zero.2 (alone m ha hb).2
  refine ⟨e0, fun i j => ?_, fun i j => ?_⟩
  · rw [e1 i j]
    split
    · rename_i e; rw [e]; exact cub_diag _ _
    · rfl
  · rw [e2 i j]
    split
    · rename_i e
      subst e
      rw [amp_h2]
      congr 1
      refine second_near R w φ (toInt (s i)) fun x y z _ _ _ _ _ _ m hm => ?_
      by_cases hneg : ∃ v, m v < 0
      · obtain ⟨v, hv⟩ := hneg
        rw [neg i m v hv, show cub (fun i j k : Fin N => φ i j k) (one (toInt (s i))) m = 0 from cub_neg _ hv]
        ring
      · push Not at hneg
        obtain ⟨x, rfl⟩ := nonneg_toInt hneg
        have sh : ∀ k, k ≠ i → Shift (fun a b c : Fin N => R a b c) (toInt (s k) - toInt (s i)) := by
          intro k hk
          fin_cases k <;> fin_cases i
          · exact absurd rfl hk
          · exact hab
          · exact (shift_neg _).1 (by rw [neg_sub]; exact hab)
          · exact absurd rfl hk
        have inz : ∀ k, inv (fun i : Fin N => w i) (fun a b c : Fin N => R a b c) (toInt (s k) - toInt (s i)) = 0 := by
          intro k
          unfold inv fracUnless
          by_cases e : k = i
          · subst e
            rw [sub_self, gap_self, div_zero, ite_self]
          · rw [if_pos (sh k e)]
        by_cases ha : x = a
        · subst ha
          rw [show f i (toInt x) = 0 from z1 0 i, show inv _ _ (toInt x - toInt (s i)) = 0 from inz 0]
          ring
        · by_cases hb : x = b
          · subst hb
            rw [show f i (toInt x) = 0 from z1 1 i, show inv _ _ (toInt x - toInt (s i)) = 0 from inz 1]
            ring
          · have := first i (toInt x) (fun e => ha (toInt_inj e)) (fun e => hb (toInt_inj e))
            have g := al x ha hb i
            have ns : ¬ Shift (fun a b c : Fin N => R a b c) (toInt x - toInt (s i)) := by
              intro hs
              rcases iso x (by fin_cases i; exacts [.inl hs, .inr hs]) with e | e
              · exact ha e
              · exact hb e
            rw [inv, frac_no ns, gap_shift, gap_level]
            field_simp
            linarith
    · rename_i e
      have c0 : cub F (f j) (toInt (s i)) = 0 := by
        rw [cub_near F (toInt (s i)) (g := 0), cub_zero]
        intro x y z k1 k2 k3 t1 t2 t3
        generalize hm : toInt (s i) + k1 • unit x + k2 • unit y + k3 • unit z = m
        have pm : ((∑ v, (m v - toInt (s j) v) : ℤ) : ZMod 2) = 0 := by
          rw [← hm, tot_shift, tot_shift, tot_shift]
          push_cast
          have := par i j e
          push_cast at this
          rw [this]
          rcases t1 with rfl | rfl <;> rcases t2 with rfl | rfl <;> rcases t3 with rfl | rfl <;> decide
        have cz : cub F (one (toInt (s j))) m = 0 := tot_zero (tot_cub (tot_one _) F) (by rw [pm]; decide)
        by_cases hneg : ∃ v, m v < 0
        · obtain ⟨v, hv⟩ := hneg
          rw [neg j m v hv]; rfl
        · push Not at hneg
          obtain ⟨x, rfl⟩ := nonneg_toInt hneg
          by_cases ha : x = a
          · subst ha; exact z1 0 j
          · by_cases hb : x = b
            · subst hb; exact z1 1 j
            · have := first j (toInt x) (fun e => ha (toInt_inj e)) (fun e => hb (toInt_inj e))
              rw [cz, neg_zero] at this
              exact (mul_eq_zero.1 this).resolve_left (al x ha hb j)
      have q0 : amp (quartic ψ (oscState (s j)) + coriolis w ζ B (oscState (s j))) (toInt (s i)) = 0 := by
        rw [amp_add, Pi.add_apply, amp_quartic, amp_coriolis, amp_oscState,
          tot_zero (tot_qua (tot_one _) _) (by rw [par i j e]; decide)]
        simp only [tot_zero (tot_ang (tot_ang (tot_one (toInt (s j))) _ _) _ _)
          (show ((∑ v, (toInt (s i) v - toInt (s j) v) : ℤ) : ZMod 2) ≠ 0 by rw [par i j e]; decide)]
        simp
      rw [c0, q0, add_zero]

end Verif.Osc
