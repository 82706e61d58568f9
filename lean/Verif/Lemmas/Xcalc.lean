import Verif.Model.Xcalc
import Verif.Spec.Xcalc
import Verif.Lemmas.Loop
import Verif.Props.Fermi
import Mathlib.Tactic.FieldSimp
import Mathlib.Tactic.Ring
import Mathlib.Tactic.Linarith

/-! Lemmas for the anharmonic constants of asymmetric tops. -/

namespace Verif

section
variable {α : Type}

theorem mem_lowPairs (n k l : Nat) : (k, l) ∈ lowPairs n ↔ l < k ∧ k < n := by
  simp only [lowPairs, List.mem_flatMap, List.mem_map, List.mem_range, List.mem_range'_1, Prod.mk.injEq]
  constructor
  · rintro ⟨a, ha, b, hb, rfl, rfl⟩; omega
  · rintro ⟨h1, h2⟩; exact ⟨k, by omega, l, h1, rfl, rfl⟩

theorem set_sym_inv (x : Mat α) (i j : Nat) (v : α) (h : ∀ a b, x a b = x b a) :
    ∀ a b, Mat.set (Mat.set x i j v) j i v a b = Mat.set (Mat.set x i j v) j i v b a := by
  intro a b
  unfold Mat.set
  by_cases h1 : a = j ∧ b = i
  · obtain ⟨rfl, rfl⟩ := h1
    by_cases h2 : a = b <;> simp [h2]
  · by_cases h2 : a = i ∧ b = j
    · obtain ⟨rfl, rfl⟩ := h2; simp
    · rw [if_neg h1, if_neg h2, if_neg (fun c => h2 ⟨c.2, c.1⟩), if_neg (fun c => h1 ⟨c.2, c.1⟩), h a b]

variable [Arith α]

theorem xcalcMat_diag (nvib : Nat) (f4 : T4 α) (freq : Vec α) (f3 zmat : T3 α) (rotcon : Vec α)
    (chk : Nat → Nat → Nat → Nat) (k : Nat) (hk : k < nvib) :
    xcalcMat nvib f4 freq f3 zmat rotcon chk k k = xDiag nvib f4 freq f3 chk k := by
  unfold xcalcMat
  refine (foldl_obs_const (fun x : Mat α => x k k) (fun (x : Mat α) (p : Nat × Nat) =>
        Mat.set (Mat.set x p.1 p.2 (xOff nvib f4 freq f3 zmat rotcon chk p.1 p.2)) p.2 p.1
          (xOff nvib f4 freq f3 zmat rotcon chk p.1 p.2)) _ _ ?_).trans ?_
  · rintro t ⟨a, b⟩ hm
    rw [mem_lowPairs] at hm
    simp only [Mat.set]
    rw [if_neg (by omega), if_neg (by omega)]
  · apply foldl_write_eq (fun x : Mat α => x k k) (fun j => j = k) (fun j => xDiag nvib f4 freq f3 chk j)
    · intro t x; simp only [Mat.set]
      by_cases h : x = k
      · subst h; simp
      · simp [h, Ne.symm h]
    · rintro x _ rfl; rfl
    · exact ⟨k, by simpa using hk, rfl⟩

theorem xcalcMat_off (nvib : Nat) (f4 : T4 α) (freq : Vec α) (f3 zmat : T3 α) (rotcon : Vec α)
    (chk : Nat → Nat → Nat → Nat) (k l : Nat) (hl : l < k) (hk : k < nvib) :
    xcalcMat nvib f4 freq f3 zmat rotcon chk k l = xOff nvib f4 freq f3 zmat rotcon chk k l ∧
    xcalcMat nvib f4 freq f3 zmat rotcon chk l k = xOff nvib f4 freq f3 zmat rotcon chk k l := by
  unfold xcalcMat
  constructor
  · apply foldl_write_eq (fun x => x k l) (fun p : Nat × Nat => p = (k, l) ∨ p = (l, k))
      (fun p => xOff nvib f4 freq f3 zmat rotcon chk p.1 p.2)
      (fun (x : Mat α) (p : Nat × Nat) =>
        Mat.set (Mat.set x p.1 p.2 (xOff nvib f4 freq f3 zmat rotcon chk p.1 p.2)) p.2 p.1
          (xOff nvib f4 freq f3 zmat rotcon chk p.1 p.2))
    · rintro t ⟨a, b⟩
      simp only [Mat.set, Prod.mk.injEq]
      split_ifs <;> first | rfl | (exfalso; omega)
    · rintro x hx (rfl | rfl)
      · rfl
      · have := (mem_lowPairs _ _ _).1 hx; omega
    · exact ⟨_, (mem_lowPairs _ _ _).2 ⟨hl, hk⟩, .inl rfl⟩
  · apply foldl_write_eq (fun x => x l k) (fun p : Nat × Nat => p = (k, l) ∨ p = (l, k))
      (fun p => xOff nvib f4 freq f3 zmat rotcon chk p.1 p.2)
      (fun (x : Mat α) (p : Nat × Nat) =>
        Mat.set (Mat.set x p.1 p.2 (xOff nvib f4 freq f3 zmat rotcon chk p.1 p.2)) p.2 p.1
          (xOff nvib f4 freq f3 zmat rotcon chk p.1 p.2))
    · rintro t ⟨a, b⟩
      simp only [Mat.set, Prod.mk.injEq]
      split_ifs <;> first | rfl | (exfalso; omega)
    · rintro x hx (rfl | rfl)
      · rfl
      · have := (mem_lowPairs _ _ _).1 hx; omega
    · exact ⟨_, (mem_lowPairs _ _ _).2 ⟨hl, hk⟩, .inl rfl⟩

end

section Real

theorem foldl_sub_real {β : Type} (l : List β) (f : β → ℝ) (s : ℝ) :
    l.foldl (fun s x => s - f x) s = s - (l.map f).sum := by
  induction l generalizing s with
  | nil => simp
  | cons x l ih => rw [List.foldl_cons, ih, List.map_cons, List.sum_cons]; ring

theorem foldl_sub_rangeX (n : Nat) (f : Nat → ℝ) (s : ℝ) :
    (List.range n).foldl (fun s x => s - f x) s = s - ∑ i ∈ Finset.range n, f i := by
  rw [foldl_sub_real, ← sumTo_real, sumTo, foldl_add_real, lit_real]; simp

theorem chk_iff (f1 : List Fermi1) (f2 : List Fermi2) (i j k : Nat) :
    (makeFermiChecks f1 f2).ifrmchk i j k ≠ 0 ↔ Listed f1 f2 i j k := (c27_check_table f1 f2 i j k).1

theorem diag_fractions (wk wl : ℝ) (h1 : wl ≠ 0) (h2 : 2 * wk + wl ≠ 0) (h3 : 2 * wk - wl ≠ 0) :
    (8 * wk ^ 2 - 3 * wl ^ 2) / (16 * wl * (4 * wk ^ 2 - wl ^ 2)) =
      1 / (8 * wl) + 1 / (32 * (2 * wk + wl)) - 1 / (2 * wk - wl) / 32 := by
  obtain ⟨a, ha⟩ : ∃ a, a = 2 * wk + wl := ⟨_, rfl⟩
  obtain ⟨b, hb⟩ : ∃ b, b = 2 * wk - wl := ⟨_, rfl⟩
  have h : 4 * wk ^ 2 - wl ^ 2 = a * b := by rw [ha, hb]; ring
  rw [h, ← ha, ← hb]
  rw [← ha] at h2
  rw [← hb] at h3
  field_simp
  rw [ha, hb]
  ring

theorem off_fractions (k l m : ℝ) (h1 : k + l + m ≠ 0) (h2 : k - l + m ≠ 0) (h3 : k + l - m ≠ 0)
    (h4 : -k + l + m ≠ 0) :
    (1 / 2) * m * (m ^ 2 - k ^ 2 - l ^ 2) / (-(k + l + m) * (k - l + m) * (k + l - m) * (-k + l + m)) =
      (1 / (k + l + m) + 1 / (k - l + m) - 1 / (k + l - m) + 1 / (-k + l + m)) / 8 := by
  field_simp
  ring

theorem e0_fractions (k l m : ℝ) (h1 : k + l + m ≠ 0) (h2 : k - l + m ≠ 0) (h3 : k + l - m ≠ 0)
    (h4 : -k + l + m ≠ 0) :
    k * l * m / (4 * (k + l + m) * (k - l + m) * (k + l - m) * (k - l - m)) =
      (1 / (k + l + m) - 1 / (k - l + m) - 1 / (k + l - m) - 1 / (-k + l + m)) / 32 := by
  have h : k - l - m = -(-k + l + m) := by ring
  rw [h]
  field_simp
  ring

theorem e0kkl_fractions (k l : ℝ) (h2 : 2 * k + l ≠ 0) (h3 : 2 * k - l ≠ 0) :
    l / (64 * (4 * k ^ 2 - l ^ 2)) = (1 / (2 * k - l) - 1 / (2 * k + l)) / 128 := by
  have h : 4 * k ^ 2 - l ^ 2 = (2 * k + l) * (2 * k - l) := by ring
  rw [h]
  field_simp
  ring

theorem frac_pos {P : Prop} (h : P) (d : ℝ) : fracUnless P d = 0 := if_pos h
theorem frac_neg {P : Prop} (h : ¬ P) (d : ℝ) : fracUnless P d = 1 / d := if_neg h

end Real

end Verif
