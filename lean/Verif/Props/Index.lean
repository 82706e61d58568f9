import Verif.Lemmas.Index

/-!
# C01, C02, C03: packed storage

Specification: two index tuples denote the same force constant iff one is a reordering
(`List.Perm`) of the other; a table for `n` modes has one slot per unordered tuple.
-/

namespace Verif

/-- C01 (order independence and no collisions): two triples use the same slot exactly when one is a
reordering of the other. -/
theorem c01_same_slot_iff (a b c a' b' c' : Nat) :
    find3 a b c = find3 a' b' c' ↔ [a, b, c].Perm [a', b', c'] := by
  refine ⟨fun h => ?_, find3_perm⟩
  obtain ⟨x, y, z, h1, h2, hp⟩ := exists_sorted3 a b c
  obtain ⟨x', y', z', h1', h2', hp'⟩ := exists_sorted3 a' b' c'
  rw [find3_perm hp, find3_perm hp', find3_sorted h1 h2, find3_sorted h1' h2'] at h
  obtain ⟨rfl, rfl, rfl⟩ := sorted3_inj h1 h2 h1' h2' h
  exact hp.trans hp'.symm

/-- non-trivial instance: (2,0,1) and (1,2,0) share a slot, (2,0,1) and (2,0,0) do not -/
example : find3 2 0 1 = find3 1 2 0 ∧ find3 2 0 1 ≠ find3 2 0 0 := by
  rw [c01_same_slot_iff, Ne, c01_same_slot_iff]; decide

/-- C01 (density): for indices below `n` the slots in use are exactly `0 … n(n+1)(n+2)/6 - 1`. -/
theorem c01_slots_dense (n s : Nat) :
    s < n * (n + 1) * (n + 2) / 6 ↔ ∃ a b c, a < n ∧ b < n ∧ c < n ∧ find3 a b c = s := by
  constructor
  · intro h
    obtain ⟨a, b, c, h1, h2, h3, h4⟩ := exists_sorted3_of_lt (n := n) h
    exact ⟨a, b, c, by omega, by omega, h3, by rw [find3_sorted h1 h2, h4]⟩
  · rintro ⟨a, b, c, ha, hb, hc, rfl⟩
    obtain ⟨x, y, z, h1, h2, hp⟩ := exists_sorted3 a b c
    have hz : z ∈ [a, b, c] := hp.mem_iff.mpr (by simp)
    have hzn : z < n := by simp at hz; omega
    rw [find3_perm hp, find3_sorted h1 h2]
    exact lt_of_lt_of_le (sorted3_lt h1 h2) (tri3_mono (by omega))

/-- non-trivial instance: the last slot of a 3-mode table (the value checked by the repo's
test_find3r) -/
example : (9 : Nat) < 3 * (3 + 1) * (3 + 2) / 6 ∧ find3 2 2 2 = 9 := by
  constructor
  · decide
  · rw [find3_sorted le_rfl le_rfl]; decide

/-- C01 (as seen by a reader of the table): a table of the right length for `n` modes can be read at
every triple below `n`, in any order of the indices, with the same result. -/
theorem c01_read {α : Type} (n : Nat) (f : F3qcm α) (hf : f.length = n * (n + 1) * (n + 2) / 6)
    (a b c a' b' c' : Nat) (ha : a < n) (hb : b < n) (hc : c < n)
    (hp : [a, b, c].Perm [a', b', c']) :
    ∃ v, f.get a b c = some v ∧ f.get a' b' c' = some v := by
  have h : find3 a b c < f.length := by
    rw [hf, c01_slots_dense]; exact ⟨a, b, c, ha, hb, hc, rfl⟩
  refine ⟨f[find3 a b c], ?_, ?_⟩
  · simp [F3qcm.get, h]
  · simp [F3qcm.get, ← find3_perm hp, h]

example : ∃ v, F3qcm.get [10, 11, 12, 13] 1 0 0 = some v ∧ F3qcm.get [10, 11, 12, 13] 0 1 0 = some v :=
  c01_read 2 [10, 11, 12, 13] (by decide) 1 0 0 0 1 0 (by decide) (by decide) (by decide) (by decide)

/-- C02 (order independence and no collisions). -/
theorem c02_same_slot_iff (a b c d a' b' c' d' : Nat) :
    find4 a b c d = find4 a' b' c' d' ↔ [a, b, c, d].Perm [a', b', c', d'] := by
  refine ⟨fun h => ?_, find4_perm⟩
  obtain ⟨x, y, z, w, h1, h2, h3, hp⟩ := exists_sorted4 a b c d
  obtain ⟨x', y', z', w', h1', h2', h3', hp'⟩ := exists_sorted4 a' b' c' d'
  rw [find4_perm hp, find4_perm hp', find4_sorted h1 h2 h3, find4_sorted h1' h2' h3'] at h
  obtain ⟨rfl, rfl, rfl, rfl⟩ := sorted4_inj h1 h2 h3 h1' h2' h3' h
  exact hp.trans hp'.symm

example : find4 3 0 2 1 = find4 1 3 0 2 ∧ find4 3 0 2 1 ≠ find4 3 0 2 2 := by
  rw [c02_same_slot_iff, Ne, c02_same_slot_iff]; decide

/-- C02 (density). -/
theorem c02_slots_dense (n s : Nat) :
    s < n * (n + 1) * (n + 2) * (n + 3) / 24 ↔
      ∃ a b c d, a < n ∧ b < n ∧ c < n ∧ d < n ∧ find4 a b c d = s := by
  constructor
  · intro h
    obtain ⟨a, b, c, d, h1, h2, h3, h4, h5⟩ := exists_sorted4_of_lt (n := n) h
    exact ⟨a, b, c, d, by omega, by omega, by omega, h4, by rw [find4_sorted h1 h2 h3, h5]⟩
  · rintro ⟨a, b, c, d, ha, hb, hc, hd, rfl⟩
    obtain ⟨x, y, z, w, h1, h2, h3, hp⟩ := exists_sorted4 a b c d
    have hz : w ∈ [a, b, c, d] := hp.mem_iff.mpr (by simp)
    have hzn : w < n := by simp at hz; omega
    rw [find4_perm hp, find4_sorted h1 h2 h3]
    exact lt_of_lt_of_le (sorted4_lt h1 h2 h3) (tri4_mono (by omega))

example : (14 : Nat) < 3 * (3 + 1) * (3 + 2) * (3 + 3) / 24 ∧ find4 2 2 2 2 = 14 := by
  constructor
  · decide
  · rw [find4_sorted le_rfl le_rfl le_rfl]; decide

/-- C02 (write, then read): in a table for `n` modes, writing at (a,b,c,d) succeeds, keeps the
length, is read back at every reordering of the indices, and leaves every other quadruple as it
was. -/
theorem c02_write_read {α : Type} (n : Nat) (f : F4qcm α)
    (hf : f.length = n * (n + 1) * (n + 2) * (n + 3) / 24) (v : α)
    (a b c d : Nat) (ha : a < n) (hb : b < n) (hc : c < n) (hd : d < n) :
    ∃ g, F4qcm.put f a b c d v = some g ∧ g.length = f.length ∧
      ∀ a' b' c' d', F4qcm.get g a' b' c' d' =
        if [a', b', c', d'].Perm [a, b, c, d] then some v else F4qcm.get f a' b' c' d' := by
  have h : find4 a b c d < f.length := by
    rw [hf, c02_slots_dense]; exact ⟨a, b, c, d, ha, hb, hc, hd, rfl⟩
  refine ⟨f.set (find4 a b c d) v, by simp [F4qcm.put, h], by simp, ?_⟩
  intro a' b' c' d'
  unfold F4qcm.get
  rw [List.getElem?_set]
  by_cases hp : [a', b', c', d'].Perm [a, b, c, d]
  · rw [if_pos hp, if_pos (find4_perm hp.symm), if_pos h]
  · rw [if_neg hp, if_neg]
    intro he
    exact hp ((c02_same_slot_iff _ _ _ _ _ _ _ _).mp he.symm)

example : ∃ g, F4qcm.put [0, 0, 0, 0, 0] 1 0 1 0 7 = some g ∧ F4qcm.get g 0 0 1 1 = some 7 := by
  obtain ⟨g, h1, _, h3⟩ := c02_write_read 2 [0, 0, 0, 0, 0] (by decide) 7 1 0 1 0
    (by decide) (by decide) (by decide) (by decide)
  exact ⟨g, h1, by rw [h3]; decide⟩

/-- C03: two pairs use the same pair slot exactly when they are equal up to order. -/
theorem c03_same_slot_iff (a b a' b' : Nat) :
    pairIdx a b = pairIdx a' b' ↔ [a, b].Perm [a', b'] := by
  have key : ∀ a b : Nat, ∃ x y, x ≤ y ∧ [a, b].Perm [x, y] ∧ pairIdx a b = x + tri2 y := by
    intro a b
    rcases le_total a b with h | h
    · exact ⟨a, b, h, List.Perm.refl _, pairIdx_sorted h⟩
    · exact ⟨b, a, h, List.Perm.swap _ _ _, by rw [pairIdx_comm, pairIdx_sorted h]⟩
  obtain ⟨x, y, h1, hp, he⟩ := key a b
  obtain ⟨x', y', h1', hp', he'⟩ := key a' b'
  constructor
  · intro h
    rw [he, he'] at h
    obtain ⟨rfl, rfl⟩ := sorted2_inj h1 h1' h
    exact hp.trans hp'.symm
  · intro h
    unfold pairIdx
    have hmem : ∀ z, z ∈ [a, b] ↔ z ∈ [a', b'] := fun z => h.mem_iff
    have h2 : (a = a' ∧ b = b') ∨ (a = b' ∧ b = a') := by
      rw [List.cons_perm_iff_perm_erase] at h
      obtain ⟨hm, hp2⟩ := h
      simp at hm
      rcases hm with rfl | rfl
      · left; simp at hp2; simpa using hp2
      · right
        by_cases hab : a' = a
        · subst hab; simp at hp2; simpa using hp2
        · rw [List.erase_cons_tail (by simpa using hab)] at hp2
          simp at hp2; exact ⟨rfl, hp2⟩
    rcases h2 with ⟨rfl, rfl⟩ | ⟨rfl, rfl⟩
    · rfl
    · rw [max_comm, min_comm]

example : pairIdx 4 1 = pairIdx 1 4 ∧ pairIdx 4 1 ≠ pairIdx 4 2 := by decide

/-- C03: for indices below `n` the pair slots are exactly `0 … n(n+1)/2 - 1`, and that is the number
`ioff (n + 1)` of pair slots computed for `n` modes. -/
theorem c03_slots_dense (n s : Nat) :
    (s < n * (n + 1) / 2 ↔ ∃ a b, a < n ∧ b < n ∧ pairIdx a b = s) ∧
      ioffChecked (n + 1) = some (n * (n + 1) / 2) := by
  refine ⟨⟨?_, ?_⟩, by simp [ioffChecked, ioff]⟩
  · intro h
    obtain ⟨a, b, h1, h2, h3⟩ := exists_sorted2_of_lt (n := n) h
    exact ⟨a, b, by omega, h2, by rw [pairIdx_sorted h1, h3]⟩
  · rintro ⟨a, b, ha, hb, rfl⟩
    rcases le_total a b with h | h
    · rw [pairIdx_sorted h]
      exact lt_of_lt_of_le (sorted2_lt h) (tri2_mono (by omega))
    · rw [pairIdx_comm, pairIdx_sorted h]
      exact lt_of_lt_of_le (sorted2_lt h) (tri2_mono (by omega))

example : (5 : Nat) < 3 * (3 + 1) / 2 ∧ pairIdx 2 2 = 5 := by decide

/-- C03: the offset of 0 underflows, every other offset is the triangular number. -/
theorem c03_ioff_underflow (n : Nat) :
    (ioffChecked n = none ↔ n = 0) ∧ (0 < n → ioffChecked n = some (n * (n - 1) / 2)) := by
  unfold ioffChecked ioff
  constructor
  · split <;> simp_all
  · intro h; rw [if_neg (by omega), Nat.mul_comm]

example : ioffChecked 0 = none ∧ ioffChecked 4 = some 6 := by decide

end Verif
