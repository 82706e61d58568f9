import Verif.Arith
import Mathlib.Algebra.BigOperators.Group.Finset.Basic
import Mathlib.Algebra.BigOperators.Ring.Finset
import Mathlib.Algebra.BigOperators.Intervals
import Mathlib.Data.List.Basic

/-! Lemmas about loops that write into arrays and loops that accumulate sums. -/

namespace Verif

/-- A loop of conditional writes, observed at one place: if every write that hits the place writes
the same value and there is at least one, that value is there afterwards. -/
theorem foldl_write_eq {X S V : Type} (obs : S → V) (hit : X → Prop) [DecidablePred hit]
    (val : X → V) (step : S → X → S)
    (hstep : ∀ t x, obs (step t x) = if hit x then val x else obs t)
    (L : List X) (t0 : S) (v : V)
    (hv : ∀ x ∈ L, hit x → val x = v) (hex : ∃ x ∈ L, hit x) :
    obs (L.foldl step t0) = v := by
  induction L using List.reverseRecOn with
  | nil => simp at hex
  | append_singleton L x ih =>
    rw [List.foldl_append, List.foldl_cons, List.foldl_nil, hstep]
    split
    · next h => exact hv x (by simp) h
    · next h =>
      apply ih
      · intro y hy; exact hv y (by simp [hy])
      · obtain ⟨y, hy, hh⟩ := hex
        simp at hy
        rcases hy with hy | rfl
        · exact ⟨y, hy, hh⟩
        · exact absurd hh h

/-- A loop of conditional writes leaves a place alone that no write hits. -/
theorem foldl_write_ne {X S V : Type} (obs : S → V) (hit : X → Prop) [DecidablePred hit]
    (val : X → V) (step : S → X → S)
    (hstep : ∀ t x, obs (step t x) = if hit x then val x else obs t)
    (L : List X) (t0 : S) (hn : ∀ x ∈ L, ¬ hit x) :
    obs (L.foldl step t0) = obs t0 := by
  induction L using List.reverseRecOn with
  | nil => rfl
  | append_singleton L x ih =>
    rw [List.foldl_append, List.foldl_cons, List.foldl_nil, hstep, if_neg (hn x (by simp))]
    exact ih (fun y hy => hn y (by simp [hy]))

/-- Like `foldl_write_ne` when each step is only known to leave the place alone for members. -/
theorem foldl_obs_const {X S V : Type} (obs : S → V) (step : S → X → S)
    (L : List X) (t0 : S) (hn : ∀ t, ∀ x ∈ L, obs (step t x) = obs t) :
    obs (L.foldl step t0) = obs t0 := by
  induction L generalizing t0 with
  | nil => rfl
  | cons x L ih =>
    rw [List.foldl_cons, ih _ (fun t y hy => hn t y (by simp [hy])), hn _ _ (by simp)]

/-- An invariant of the state carried through a loop. -/
theorem foldl_inv {X S : Type} (P : S → Prop) (step : S → X → S) (L : List X) (s0 : S)
    (h0 : P s0) (hs : ∀ s, ∀ x ∈ L, P s → P (step s x)) : P (L.foldl step s0) := by
  induction L generalizing s0 with
  | nil => exact h0
  | cons x L ih =>
    exact ih _ (hs _ x (by simp) h0) (fun s y hy => hs s y (by simp [hy]))

section Real

theorem lit_real (q : ℚ) : (Arith.lit q : ℝ) = (q : ℝ) := rfl

theorem ofNat_real (n : Nat) : (ofNat n : ℝ) = (n : ℝ) := by simp [ofNat, lit_real]

theorem sqrt_real (x : ℝ) : Arith.sqrt x = Real.sqrt x := rfl
theorem abs_real (x : ℝ) : Arith.abs x = |x| := rfl
theorem cos_real (x : ℝ) : Arith.cos x = Real.cos x := rfl
theorem sin_real (x : ℝ) : Arith.sin x = Real.sin x := rfl
theorem atan_real (x : ℝ) : Arith.atan x = Real.arctan x := rfl
theorem pi_real : (Arith.pi : ℝ) = Real.pi := rfl
theorem powf15_real (x : ℝ) : Arith.powf15 x = x ^ (3 / 2 : ℝ) := rfl
theorem lt_real (a b : ℝ) : (Arith.lt a b = true) ↔ a < b := by
  simp [Arith.lt]
theorem le_real (a b : ℝ) : (Arith.le a b = true) ↔ a ≤ b := by
  simp [Arith.le]
theorem sq_real (x : ℝ) : sq x = x ^ 2 := by unfold sq; ring

theorem foldl_add_real {β : Type} (l : List β) (f : β → ℝ) (s : ℝ) :
    l.foldl (fun s x => s + f x) s = s + (l.map f).sum := by
  induction l generalizing s with
  | nil => simp
  | cons x l ih => rw [List.foldl_cons, ih, List.map_cons, List.sum_cons]; ring

theorem sumL_real {β : Type} (l : List β) (f : β → ℝ) : sumL l f = (l.map f).sum := by
  unfold sumL; rw [foldl_add_real, lit_real]; simp

theorem sumTo_real (n : Nat) (f : Nat → ℝ) : sumTo n f = ∑ i ∈ Finset.range n, f i := by
  unfold sumTo
  rw [foldl_add_real, lit_real]
  induction n with
  | zero => simp
  | succ n ih =>
    rw [List.range_succ, List.map_append, List.sum_append, ← add_assoc, ih, Finset.sum_range_succ]
    simp

end Real

end Verif
