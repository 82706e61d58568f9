import Verif.Lemmas.VanVleck

/-!
# The value of the coupling of two states, and what `genrsa` returns

Helpers for C108.
-/

namespace Verif

open Finset

theorem deletes_listed (f1 : List Fermi1) (f2 : List Fermi2) (i j k : Nat) : Deletes f1 f2 k i j ↔ Listed f1 f2 i j k := by
  unfold Deletes Listed
  constructor
  · rintro (⟨⟨a, b⟩, hf, rfl, rfl, rfl⟩ | ⟨⟨a, b, c⟩, hf, rfl, ⟨rfl, rfl⟩ | ⟨rfl, rfl⟩⟩)
    · exact .inl ⟨rfl, hf⟩
    · exact .inr (.inl hf)
    · exact .inr (.inr hf)
  · rintro (⟨rfl, hf⟩ | hf | hf)
    · exact .inl ⟨_, hf, rfl, rfl, rfl⟩
    · exact .inr ⟨_, hf, rfl, .inl ⟨rfl, rfl⟩⟩
    · exact .inr ⟨_, hf, rfl, .inr ⟨rfl, rfl⟩⟩

/-- One entry of the list of differing modes. -/
def diffOf (a b : Nat → Nat) (i : Nat) : Diff := ⟨(b i : ℤ) - (a i : ℤ), min (a i) (b i), i⟩

theorem diffList_eq {n : Nat} {a b : Nat → Nat} {l : List Nat} (hl : l.Pairwise (· < ·))
    (h : ∀ v, v ∈ l ↔ v < n ∧ a v ≠ b v) : diffList n a b = l.map (diffOf a b) := by
  have e1 : diffList n a b = ((List.range n).filter fun v => a v ≠ b v).map (diffOf a b) := by
    induction n generalizing l with
    | zero => rfl
    | succ n ih =>
      rw [diffList_succ, List.range_succ, List.filter_append, List.map_append, ih (l := (List.range n).filter fun v => a v ≠ b v)
        (List.Pairwise.filter _ List.pairwise_lt_range) (by simp)]
      congr 1
      unfold diffAt
      by_cases hn : a n = b n
      · rw [if_neg (by omega)]; simp [hn]
      · rw [if_pos (by omega)]; simp [hn, diffOf]
  rw [e1]
  congr 1
  refine List.Perm.eq_of_pairwise (le := (· < ·)) (fun x y _ _ h1 h2 => absurd h2 (by omega))
    (List.Pairwise.filter _ List.pairwise_lt_range) hl ?_
  refine (List.perm_ext_iff_of_nodup ?_ ?_).2 fun v => ?_
  · exact List.Nodup.filter _ List.nodup_range
  · exact hl.imp (fun h => Nat.ne_of_lt h)
  · rw [h]; simp

theorem netApart_diffList (n : Nat) (a b : Nat → Nat) : netApart n a b = ((diffList n a b).map Diff.ndiff).sum := by
  induction n with
  | zero => rfl
  | succ n ih =>
    rw [netApart_succ, diffList_succ, List.map_append, List.sum_append, ← ih]
    congr 1
    unfold diffAt
    split_ifs with h
    · simp
    · simp only [Option.toList_none, List.map_nil, List.sum_nil]; omega

theorem foldlM_some {f : ℝ → Nat → Option ℝ} {c : Nat → ℝ} (l : List Nat) (h : ∀ x, ∀ k ∈ l, f x k = some (x + c k)) (x : ℝ) :
    l.foldlM f x = some (x + (l.map c).sum) := by
  induction l generalizing x with
  | nil => simp
  | cons k l ih =>
    rw [List.foldlM_cons, h x k (by simp), Option.bind_eq_bind, Option.bind_some, ih fun x k hk => h x k (by simp [hk])]
    simp only [List.map_cons, List.sum_cons]
    congr 1; ring

namespace Osc

variable {N : Nat}

theorem den_listed (w : Nat → ℝ) {f1 : List Fermi1} {f2 : List Fermi2} (hoff : ∀ a b c, Listed f1 f2 a b c → c ≠ a ∧ c ≠ b) :
    Den w (initResDenom w f1 f2) (inv (fun i : Fin N => w i) fun i j k : Fin N => Listed f1 f2 i j k) := by
  have hR := listed_rel N hoff
  have key : ∀ (P : Prop) (a b c : SignIdx) (s : Fin N → ℤ), (MatchesListed f1 f2 a b c ↔ P) →
      (Shift (fun i j k : Fin N => Listed f1 f2 i j k) s ↔ P) →
      signedFreq w a + signedFreq w b + signedFreq w c = gap (fun i : Fin N => w i) 0 s →
      denom w (initResDenom w f1 f2) a b c = inv (fun i : Fin N => w i) (fun i j k : Fin N => Listed f1 f2 i j k) s := by
    intro P a b c s h1 h2 h3
    unfold inv fracUnless
    by_cases hP : P
    · rw [(denom_value w f1 f2 a b c).1 (h1.2 hP), if_pos (h2.2 hP)]
    · rw [(denom_value w f1 f2 a b c).2 (fun h => hP (h1.1 h)), if_neg (fun h => hP (h2.1 h)), h3]
  have gu : ∀ i : Fin N, gap (fun i : Fin N => w i) 0 (unit i) = w i := by
    intro i
    unfold gap
    simp [unit_at]
  have ga : ∀ s t : Fin N → ℤ, gap (fun i : Fin N => w i) 0 (s + t) =
      gap (fun i : Fin N => w i) 0 s + gap (fun i : Fin N => w i) 0 t := by
    intro s t
    unfold gap
    rw [← sum_add_distrib]
    exact sum_congr rfl fun v _ => by simp; ring
  have gs : ∀ s t : Fin N → ℤ, gap (fun i : Fin N => w i) 0 (s - t) =
      gap (fun i : Fin N => w i) 0 s - gap (fun i : Fin N => w i) 0 t := by
    intro s t
    rw [sub_eq_add_neg, ga, gap_zero_neg]; ring
  refine ⟨?_, fun k => ?_⟩
  · rintro ⟨i, u⟩ ⟨j, v⟩ k
    cases u <;> cases v <;> simp only [sgn, net, if_true, Bool.false_eq_true, if_false]
    · refine key False _ _ _ _ ⟨(matches_iff f1 f2 i j k).2.2.2.2.2.2.2, False.elim⟩ ⟨fun h => ?_, False.elim⟩ ?_
      · refine not_shift hR (s := unit i + unit j + unit k) (fun v => ?_) ((shift_neg _).1 ?_)
        · simp only [Pi.add_apply, unit_at]; split_ifs <;> omega
        · rwa [show -unit i + -unit j - unit k = -(unit i + unit j + unit k) by abel] at h
      · simp only [signedFreq, gs, ga, gap_zero_neg, gu]; ring
    · refine key (Listed f1 f2 i k j) _ _ _ _ ((matches_iff f1 f2 j i k).2.1.trans (deletes_listed _ _ _ _ _)) ?_ ?_
      · rw [← shift_neg, show -(-unit i + unit j - unit k) = unit i + unit k - unit j by abel]
        exact shift_iff hR i k j
      · simp only [signedFreq, gs, ga, gap_zero_neg, gu]; ring
    · refine key (Listed f1 f2 j k i) _ _ _ _ ((matches_iff f1 f2 i j k).1.trans (deletes_listed _ _ _ _ _)) ?_ ?_
      · rw [← shift_neg, show -(unit i + -unit j - unit k) = unit j + unit k - unit i by abel]
        exact shift_iff hR j k i
      · simp only [signedFreq, gs, ga, gap_zero_neg, gu]; ring
    · refine key (Listed f1 f2 i j k) _ _ _ _ ((matches_iff f1 f2 k i j).2.2.2.2.2.1.trans (deletes_listed _ _ _ _ _)) ?_ ?_
      · exact shift_iff hR i j k
      · simp only [signedFreq, gs, ga, gu]; ring
  · rw [(inv_inv _ hR).odd, inv, frac_no (not_shift hR fun v => by rw [unit_at]; split_ifs <;> omega), gu]

/-! ## The coupling in terms of the constants of the code -/

section
variable {w : Nat → ℝ} {dnm : T3 ℝ} {g : (Fin N → ℤ) → ℝ} (hD : Den w dnm g) (hg : ∀ s, g (-s) = -g s) (hw : ∀ i : Fin N, 0 < w i)
  {φ : Nat → Nat → Nat → ℝ} (hφ : Sy3 fun i j k : Fin N => φ i j k) {ψ : Nat → Nat → Nat → Nat → ℝ}
  (hψ : Sy4 fun i j k l : Fin N => ψ i j k l) {ζ : Nat → Nat → Nat → ℝ} (hζ : ∀ (i j : Fin N) a, ζ i j a = -ζ j i a) (B : Nat → ℝ)
include hD hg hw hφ hψ hζ

/-- The mean of the two matrix elements between normalised states. -/
noncomputable def mean2 (w : Nat → ℝ) (φ : Nat → Nat → Nat → ℝ) (ψ : Nat → Nat → Nat → Nat → ℝ) (ζ : Nat → Nat → Nat → ℝ) (B : Nat → ℝ)
    (g : (Fin N → ℤ) → ℝ) (n m : Fin N → ℤ) : ℝ :=
  (elt (fun i : Fin N => w i) (fun i j k : Fin N => φ i j k) (fun i j k l : Fin N => ψ i j k l) (fun a k l => ζ k l a) B g n m *
      Real.sqrt (wt m / wt n) +
    elt (fun i : Fin N => w i) (fun i j k : Fin N => φ i j k) (fun i j k l : Fin N => ψ i j k l) (fun a k l => ζ k l a) B g m n *
      Real.sqrt (wt n / wt m)) / 2

theorem mean_aabb {n m : Fin N → ℤ} (hn : ∀ v, 0 ≤ n v) (hm : ∀ v, 0 ≤ m v) {i j : Fin N} (hij : i ≠ j)
    (h : unit i + unit i - unit j - unit j = m - n) : mean2 w φ ψ ζ B g n m = Real.sqrt (wt m / wt n) *
      (((m j + 1) * (m j + 2) : ℝ) * (res2aAabb (List.range N) w B ζ φ ψ dnm i j / 4)) := by
  unfold mean2
  rw [couple _ hφ hψ (fun a k => by have := hζ k k a; linarith) B hg hn hm, tess_aabb _ hij h, tess_aabb _ hij h]
  simp only [tess_aabb _ hij h, aabb_q hψ hij h, aabb_p hφ g hij h,
    aabb_c hw (fun i j => hζ _ _ _) hij h, code_aabb hD hφ]
  congr 1
  simp only [sum_range_succ, sum_range_zero]
  ring

theorem mean_aabc {n m : Fin N → ℤ} (hn : ∀ v, 0 ≤ n v) (hm : ∀ v, 0 ≤ m v) {i j k : Fin N} (hij : i ≠ j) (hik : i ≠ k)
    (hjk : j ≠ k) (h : unit i + unit i - unit j - unit k = m - n) : mean2 w φ ψ ζ B g n m = Real.sqrt (wt m / wt n) *
      (((m j + 1) * (m k + 1) : ℝ) * (res2aAabc (List.range N) w B ζ φ ψ dnm i j k / 4)) := by
  unfold mean2
  rw [couple _ hφ hψ (fun a k => by have := hζ k k a; linarith) B hg hn hm]
  simp only [tess_aabc _ hij hik hjk h, aabc_q hψ hij hik hjk h, aabc_p hφ g hij hik hjk h,
    aabc_c hw (fun i j => hζ _ _ _) hij hik hjk h, code_aabc hD hφ]
  congr 1
  simp only [sum_range_succ, sum_range_zero]
  ring

theorem mean_loop {n m : Fin N → ℤ} (hn : ∀ v, 0 ≤ n v) (hm : ∀ v, 0 ≤ m v) {i j : Fin N} (hij : i ≠ j)
    (h : unit i - unit j = m - n) : mean2 w φ ψ ζ B g n m = Real.sqrt (wt m / wt n) *
      ((m j + 1 : ℝ) * (m i * (res2aAaab (List.range N) w φ ψ dnm i j / 4) + (m j + 1) * (res2aAaab (List.range N) w φ ψ dnm j i / 4) +
        ∑ k : Fin N, if k ≠ i ∧ k ≠ j then (m k + 1 / 2) * (res2aAcbc (List.range N) w B ζ φ ψ dnm i k j / 2) else 0)) := by
  unfold mean2
  rw [couple _ hφ hψ (fun a k => by have := hζ k k a; linarith) B hg hn hm]
  have e : ∀ C, tess lop C (one n) m = (six C n m i i j i + six C n m i i i j) + (six C n m i j j j + six C n m j i j j) +
      ∑ k, if k ≠ i ∧ k ≠ j then six C n m i k j k + six C n m i k k j + six C n m k i j k + six C n m k i k j else 0 :=
    fun C => tess_loop C hij h
  simp only [e, loop_i_q hψ hij h, loop_j_q hψ hij h, loop_i_p hφ g hij h, loop_j_p hφ g hij h,
    loop_i_c hw (fun i j => hζ _ _ _) hij h, loop_j_c hw (fun i j => hζ _ _ _) hij h,
    code_aaab' hD hφ ψ i j, code_aaab hD hφ ψ i j]
  congr 1
  conv_rhs => rw [mul_add, mul_sum]
  have split : ∀ a b d e f A C : ℝ, a / 96 + e / 192 = A → b / 96 - 1 / 4 * d + f / 192 = C →
      (a + b) / 96 - 1 / 4 * d + (e + f) / 192 = A + C := by
    intro a b d e f A C h1 h2; rw [← h1, ← h2]; ring
  simp only [mul_zero, add_zero, zero_add]
  refine split _ _ _ _ _ _ _ ?_ ?_
  · ring
  · have c3 : ∑ a ∈ range 3, B a * ∑ k : Fin N, (if k ≠ i ∧ k ≠ j then six (vc (fun i : Fin N => w i) fun k l => ζ k l a) n m i k j k +
        six (vc (fun i : Fin N => w i) fun k l => ζ k l a) n m i k k j + six (vc (fun i : Fin N => w i) fun k l => ζ k l a) n m k i j k +
        six (vc (fun i : Fin N => w i) fun k l => ζ k l a) n m k i k j else 0) =
      ∑ k : Fin N, if k ≠ i ∧ k ≠ j then ∑ a ∈ range 3, B a * (six (vc (fun i : Fin N => w i) fun k l => ζ k l a) n m i k j k +
        six (vc (fun i : Fin N => w i) fun k l => ζ k l a) n m i k k j + six (vc (fun i : Fin N => w i) fun k l => ζ k l a) n m k i j k +
        six (vc (fun i : Fin N => w i) fun k l => ζ k l a) n m k i k j) else 0 := by
      simp only [mul_sum]
      rw [sum_comm]
      refine sum_congr rfl fun k _ => ?_
      split_ifs
      · rfl
      · simp
    rw [c3, Finset.sum_div, mul_sum, Finset.sum_div, ← sum_sub_distrib, ← sum_add_distrib]
    refine sum_congr rfl fun k _ => ?_
    split_ifs with hk
    · have hik : i ≠ k := Ne.symm hk.1
      have hjk : j ≠ k := Ne.symm hk.2
      simp only [loop_k_q hψ hij hik hjk h, loop_k_p hφ g hij hik hjk h, loop_k_c hw (fun i j => hζ _ _ _) hij hik hjk h,
        code_acbc hD hφ ψ hψ]
      simp only [sum_range_succ, sum_range_zero]
      ring
    · ring

end

/-- `√(X / Y) · Y = √(X Y)`. -/
theorem sqrt_ratio {u v X Y : ℝ} (hu : 0 < u) (hv : 0 < v) (hX : 0 < X) (hY : 0 < Y) (h : Y * u = X * v) (r : ℝ) :
    Real.sqrt (u / v) * (Y * (r / 4)) = r * Real.sqrt (X * Y / 16) := by
  have e : u / v = X * Y / 16 * (4 / Y) ^ 2 := by
    field_simp
    linear_combination 16 * h
  rw [e, Real.sqrt_mul (by positivity), Real.sqrt_sq (by positivity)]
  field_simp

end Osc

end Verif
