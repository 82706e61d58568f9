import Verif.Model.Index
import Mathlib.Data.List.Sort
import Mathlib.Tactic.Ring
import Mathlib.Tactic.Linarith

/-! Auxiliary lemmas for the packed index formulas. -/

namespace Verif

theorem sortIndices_perm (l : List Nat) : (sortIndices l).Perm l := List.mergeSort_perm _ _

theorem sortIndices_sorted (l : List Nat) : (sortIndices l).Pairwise (· ≤ ·) := by
  have := List.pairwise_mergeSort (le := fun a b : Nat => decide (a ≤ b))
    (by intro a b c; simp; omega) (by intro a b; simp; omega) l
  simpa [sortIndices] using this

theorem sortIndices_congr {l l' : List Nat} (h : l.Perm l') : sortIndices l = sortIndices l' :=
  List.Perm.eq_of_pairwise (fun _ _ _ _ h1 h2 => le_antisymm h1 h2) (sortIndices_sorted l)
    (sortIndices_sorted l')
    ((sortIndices_perm l).trans (h.trans (sortIndices_perm l').symm))

theorem sortIndices_of_sorted {l : List Nat} (h : l.Pairwise (· ≤ ·)) : sortIndices l = l :=
  List.Perm.eq_of_pairwise (fun _ _ _ _ h1 h2 => le_antisymm h1 h2) (sortIndices_sorted l)
    h (sortIndices_perm l)

/-- triangular numbers -/
def tri2 (b : Nat) : Nat := b * (b + 1) / 2
/-- tetrahedral numbers -/
def tri3 (c : Nat) : Nat := c * (c + 1) * (c + 2) / 6
/-- pentatope numbers -/
def tri4 (d : Nat) : Nat := d * (d + 1) * (d + 2) * (d + 3) / 24

theorem two_tri2 (b : Nat) : 2 * tri2 b = b * (b + 1) := by
  unfold tri2
  refine Nat.mul_div_cancel' ?_
  induction b with
  | zero => simp
  | succ b ih =>
    have : (b + 1) * (b + 1 + 1) = b * (b + 1) + 2 * (b + 1) := by ring
    rw [this]; exact Nat.dvd_add ih (Nat.dvd_mul_right _ _)

theorem tri2_succ (b : Nat) : tri2 (b + 1) = tri2 b + (b + 1) := by
  have h1 := two_tri2 b
  have h2 := two_tri2 (b + 1)
  have : (b + 1) * (b + 1 + 1) = b * (b + 1) + 2 * (b + 1) := by ring
  omega

theorem six_tri3 (c : Nat) : 6 * tri3 c = c * (c + 1) * (c + 2) := by
  unfold tri3
  refine Nat.mul_div_cancel' ?_
  induction c with
  | zero => simp
  | succ c ih =>
    have : (c + 1) * (c + 1 + 1) * (c + 1 + 2) = c * (c + 1) * (c + 2) + 3 * ((c + 1) * (c + 2)) := by
      ring
    rw [this]
    refine Nat.dvd_add ih ?_
    have := two_tri2 (c + 1)
    rw [show (c + 1) * (c + 2) = 2 * tri2 (c + 1) by rw [this]]
    exact ⟨tri2 (c + 1), by ring⟩

theorem tri3_succ (c : Nat) : tri3 (c + 1) = tri3 c + tri2 (c + 1) := by
  have h1 := six_tri3 c
  have h2 := six_tri3 (c + 1)
  have h3 := two_tri2 (c + 1)
  have : (c + 1) * (c + 1 + 1) * (c + 1 + 2) = c * (c + 1) * (c + 2) + 3 * ((c + 1) * (c + 1 + 1)) := by
    ring
  omega

theorem tw4_tri4 (d : Nat) : 24 * tri4 d = d * (d + 1) * (d + 2) * (d + 3) := by
  unfold tri4
  refine Nat.mul_div_cancel' ?_
  induction d with
  | zero => simp
  | succ d ih =>
    have : (d + 1) * (d + 1 + 1) * (d + 1 + 2) * (d + 1 + 3) =
        d * (d + 1) * (d + 2) * (d + 3) + 4 * ((d + 1) * (d + 1 + 1) * (d + 1 + 2)) := by ring
    rw [this]
    refine Nat.dvd_add ih ?_
    rw [← six_tri3 (d + 1)]
    exact ⟨tri3 (d + 1), by ring⟩

theorem tri4_succ (d : Nat) : tri4 (d + 1) = tri4 d + tri3 (d + 1) := by
  have h1 := tw4_tri4 d
  have h2 := tw4_tri4 (d + 1)
  have h3 := six_tri3 (d + 1)
  have : (d + 1) * (d + 1 + 1) * (d + 1 + 2) * (d + 1 + 3) =
        d * (d + 1) * (d + 2) * (d + 3) + 4 * ((d + 1) * (d + 1 + 1) * (d + 1 + 2)) := by ring
  omega

theorem tri2_mono {a b : Nat} (h : a ≤ b) : tri2 a ≤ tri2 b := by
  induction h with
  | refl => exact le_rfl
  | step _ ih => rw [Nat.succ_eq_add_one, tri2_succ]; omega

theorem tri3_mono {a b : Nat} (h : a ≤ b) : tri3 a ≤ tri3 b := by
  induction h with
  | refl => exact le_rfl
  | step _ ih => rw [Nat.succ_eq_add_one, tri3_succ]; omega

theorem tri4_mono {a b : Nat} (h : a ≤ b) : tri4 a ≤ tri4 b := by
  induction h with
  | refl => exact le_rfl
  | step _ ih => rw [Nat.succ_eq_add_one, tri4_succ]; omega

theorem find3_sorted {a b c : Nat} (h1 : a ≤ b) (h2 : b ≤ c) :
    find3 a b c = a + tri2 b + tri3 c := by
  unfold find3
  rw [sortIndices_of_sorted (by simp; omega)]
  simp only [Nat.add_sub_cancel, tri2, tri3]
  rw [show c * (c + 1) * (c + 1 + 1) = c * (c + 1) * (c + 2) by ring]
  omega

theorem find4_sorted {a b c d : Nat} (h1 : a ≤ b) (h2 : b ≤ c) (h3 : c ≤ d) :
    find4 a b c d = a + tri2 b + tri3 c + tri4 d := by
  unfold find4
  rw [sortIndices_of_sorted (by simp; omega)]
  simp only [Nat.add_sub_cancel, tri2, tri3, tri4]
  rw [show c * (c + 1) * (c + 1 + 1) = c * (c + 1) * (c + 2) by ring,
    show d * (d + 1) * (d + 1 + 1) * (d + 1 + 2) = d * (d + 1) * (d + 2) * (d + 3) by ring]
  omega

theorem find3_perm {a b c a' b' c' : Nat} (h : [a, b, c].Perm [a', b', c']) :
    find3 a b c = find3 a' b' c' := by
  unfold find3
  rw [sortIndices_congr (l := [a + 1, b + 1, c + 1]) (l' := [a' + 1, b' + 1, c' + 1])]
  exact h.map (· + 1)

theorem find4_perm {a b c d a' b' c' d' : Nat} (h : [a, b, c, d].Perm [a', b', c', d']) :
    find4 a b c d = find4 a' b' c' d' := by
  unfold find4
  rw [sortIndices_congr (l := [a + 1, b + 1, c + 1, d + 1])
    (l' := [a' + 1, b' + 1, c' + 1, d' + 1])]
  exact h.map (· + 1)

theorem exists_sorted3 (a b c : Nat) :
    ∃ x y z, x ≤ y ∧ y ≤ z ∧ [a, b, c].Perm [x, y, z] := by
  have hp := sortIndices_perm [a, b, c]
  have hs := sortIndices_sorted [a, b, c]
  have hl := hp.length_eq
  match h : sortIndices [a, b, c], hl with
  | [x, y, z], _ =>
    rw [h] at hp hs
    simp at hs
    exact ⟨x, y, z, hs.1.1, hs.2, hp.symm⟩

theorem exists_sorted4 (a b c d : Nat) :
    ∃ x y z w, x ≤ y ∧ y ≤ z ∧ z ≤ w ∧ [a, b, c, d].Perm [x, y, z, w] := by
  have hp := sortIndices_perm [a, b, c, d]
  have hs := sortIndices_sorted [a, b, c, d]
  have hl := hp.length_eq
  match h : sortIndices [a, b, c, d], hl with
  | [x, y, z, w], _ =>
    rw [h] at hp hs
    simp at hs
    exact ⟨x, y, z, w, hs.1.1, hs.2.1.1, hs.2.2, hp.symm⟩

theorem sorted2_lt {a b : Nat} (h1 : a ≤ b) : a + tri2 b < tri2 (b + 1) := by
  rw [tri2_succ]; omega

theorem sorted3_lt {a b c : Nat} (h1 : a ≤ b) (h2 : b ≤ c) :
    a + tri2 b + tri3 c < tri3 (c + 1) := by
  have := sorted2_lt h1
  have := tri2_mono (show b + 1 ≤ c + 1 by omega)
  rw [tri3_succ]; omega

theorem sorted4_lt {a b c d : Nat} (h1 : a ≤ b) (h2 : b ≤ c) (h3 : c ≤ d) :
    a + tri2 b + tri3 c + tri4 d < tri4 (d + 1) := by
  have := sorted3_lt h1 h2
  have := tri3_mono (show c + 1 ≤ d + 1 by omega)
  rw [tri4_succ]; omega

theorem sorted2_inj {a b a' b' : Nat} (h1 : a ≤ b) (h1' : a' ≤ b')
    (h : a + tri2 b = a' + tri2 b') : a = a' ∧ b = b' := by
  have e : b = b' := by
    rcases Nat.lt_trichotomy b b' with hlt | heq | hgt
    · have := sorted2_lt h1
      have := tri2_mono (show b + 1 ≤ b' by omega)
      omega
    · exact heq
    · have := sorted2_lt h1'
      have := tri2_mono (show b' + 1 ≤ b by omega)
      omega
  subst e; omega

theorem sorted3_inj {a b c a' b' c' : Nat} (h1 : a ≤ b) (h2 : b ≤ c) (h1' : a' ≤ b') (h2' : b' ≤ c')
    (h : a + tri2 b + tri3 c = a' + tri2 b' + tri3 c') : a = a' ∧ b = b' ∧ c = c' := by
  have e : c = c' := by
    rcases Nat.lt_trichotomy c c' with hlt | heq | hgt
    · have := sorted3_lt h1 h2
      have := tri3_mono (show c + 1 ≤ c' by omega)
      omega
    · exact heq
    · have := sorted3_lt h1' h2'
      have := tri3_mono (show c' + 1 ≤ c by omega)
      omega
  subst e
  obtain ⟨ha, hb⟩ := sorted2_inj h1 h1' (by omega)
  exact ⟨ha, hb, rfl⟩

theorem sorted4_inj {a b c d a' b' c' d' : Nat} (h1 : a ≤ b) (h2 : b ≤ c) (h3 : c ≤ d)
    (h1' : a' ≤ b') (h2' : b' ≤ c') (h3' : c' ≤ d')
    (h : a + tri2 b + tri3 c + tri4 d = a' + tri2 b' + tri3 c' + tri4 d') :
    a = a' ∧ b = b' ∧ c = c' ∧ d = d' := by
  have e : d = d' := by
    rcases Nat.lt_trichotomy d d' with hlt | heq | hgt
    · have := sorted4_lt h1 h2 h3
      have := tri4_mono (show d + 1 ≤ d' by omega)
      omega
    · exact heq
    · have := sorted4_lt h1' h2' h3'
      have := tri4_mono (show d' + 1 ≤ d by omega)
      omega
  subst e
  obtain ⟨ha, hb, hc⟩ := sorted3_inj h1 h2 h1' h2' (by omega)
  exact ⟨ha, hb, hc, rfl⟩

theorem exists_sorted2_of_lt {n s : Nat} (h : s < tri2 n) : ∃ a b, a ≤ b ∧ b < n ∧ a + tri2 b = s := by
  induction n with
  | zero => simp [tri2] at h
  | succ n ih =>
    rw [tri2_succ] at h
    rcases Nat.lt_or_ge s (tri2 n) with h' | h'
    · obtain ⟨a, b, h1, h2, h3⟩ := ih h'
      exact ⟨a, b, h1, by omega, h3⟩
    · exact ⟨s - tri2 n, n, by omega, by omega, by omega⟩

theorem exists_sorted3_of_lt {n s : Nat} (h : s < tri3 n) :
    ∃ a b c, a ≤ b ∧ b ≤ c ∧ c < n ∧ a + tri2 b + tri3 c = s := by
  induction n with
  | zero => simp [tri3] at h
  | succ n ih =>
    rw [tri3_succ] at h
    rcases Nat.lt_or_ge s (tri3 n) with h' | h'
    · obtain ⟨a, b, c, h1, h2, h3, h4⟩ := ih h'
      exact ⟨a, b, c, h1, h2, by omega, h4⟩
    · obtain ⟨a, b, h1, h2, h3⟩ := exists_sorted2_of_lt (n := n + 1) (s := s - tri3 n) (by omega)
      exact ⟨a, b, n, h1, by omega, by omega, by omega⟩

theorem exists_sorted4_of_lt {n s : Nat} (h : s < tri4 n) :
    ∃ a b c d, a ≤ b ∧ b ≤ c ∧ c ≤ d ∧ d < n ∧ a + tri2 b + tri3 c + tri4 d = s := by
  induction n with
  | zero => simp [tri4] at h
  | succ n ih =>
    rw [tri4_succ] at h
    rcases Nat.lt_or_ge s (tri4 n) with h' | h'
    · obtain ⟨a, b, c, d, h1, h2, h3, h4, h5⟩ := ih h'
      exact ⟨a, b, c, d, h1, h2, h3, by omega, h5⟩
    · obtain ⟨a, b, c, h1, h2, h3, h4⟩ := exists_sorted3_of_lt (n := n + 1) (s := s - tri4 n) (by omega)
      exact ⟨a, b, c, n, h1, h2, by omega, by omega, by omega⟩

theorem pairIdx_sorted {a b : Nat} (h : a ≤ b) : pairIdx a b = a + tri2 b := by
  unfold pairIdx ioff tri2
  rw [max_eq_right h, min_eq_left h, Nat.add_sub_cancel, Nat.add_comm]

theorem pairIdx_comm (a b : Nat) : pairIdx a b = pairIdx b a := by
  unfold pairIdx; rw [max_comm, min_comm]

end Verif
