import Verif.Lemmas.Load

/-!
# C04, C05, C06: loading force constants

Specification: a force-constant file lists the values for `i ≥ j ≥ k (≥ l)` with `i` slowest and the
last index fastest.  The position of `(i, j, k)` in that list is the number of tuples before it,
`C(i+2,3) + C(j+1,2) + k`, and that of `(i, j, k, l)` is `C(i+3,4) + C(j+2,3) + C(k+1,2) + l`.
-/

namespace Verif

variable {α : Type} [Arith α]

/-- C04: a slice with exactly `n(n+1)(n+2)/6` values, alone or after a two-value header, is accepted;
both give the same tensor, and its entry at any ordering `a,b,c` of `i ≥ j ≥ k` is the value the file
lists for `(i,j,k)`. Holds for every arithmetic. -/
theorem c04_values (n : Nat) (vals : List α) (hl : vals.length = n * (n + 1) * (n + 2) / 6)
    (h1 h2 : α) :
    ∃ t : T3 α, newFc3 n vals = some t ∧ newFc3 n (h1 :: h2 :: vals) = some t ∧
      ∀ i j k, k ≤ j → j ≤ i → i < n → ∀ a b c, [a, b, c].Perm [i, j, k] →
        some (t a b c) = vals[filePos3 i j k]? := by
  obtain ⟨t, ht, hv⟩ := fc3_loop n vals hl
  refine ⟨t, ?_, ?_, hv⟩
  · simp [newFc3, stripHeader, hl, ht]
  · have h3 : ¬ (vals.length + 1 + 1 = vals.length) := by omega
    simp [newFc3, stripHeader, ← hl, ht, h3]

/-- C04 (full symmetry): the loaded tensor has the same value at all orderings of its indices. -/
theorem c04_symmetric (n : Nat) (f : List α) (t : T3 α) (h : newFc3 n f = some t)
    (a b c a' b' c' : Nat) (ha : a < n) (hb : b < n) (hc : c < n)
    (hp : [a', b', c'].Perm [a, b, c]) : t a' b' c' = t a b c := by
  have hcases : ∃ vals : List α, vals.length = n * (n + 1) * (n + 2) / 6 ∧
      newFc3 n vals = some t := by
    unfold newFc3 stripHeader at h
    simp only at h
    split at h
    · next hl => exact ⟨f, hl, by simpa [newFc3, stripHeader, hl] using h⟩
    · split at h
      · simp at h
      · split at h
        · next hl =>
          exact ⟨f.drop 2, by rw [List.length_drop, hl],
            by simpa [newFc3, stripHeader, hl] using h⟩
        · simp at h
  obtain ⟨vals, hl, hv⟩ := hcases
  obtain ⟨t', ht', _, hval⟩ := c04_values n vals hl (Arith.lit 0) (Arith.lit 0)
  rw [hv] at ht'
  obtain rfl := Option.some.inj ht'
  obtain ⟨x, y, z, h1, h2, hp2⟩ := exists_sorted3 a b c
  have hz : z ∈ [a, b, c] := hp2.mem_iff.mpr (by simp)
  have hzn : z < n := by simp at hz; omega
  have hp3 : [a, b, c].Perm [z, y, x] := hp2.trans (List.reverse_perm [z, y, x])
  have e1 := hval z y x h1 h2 hzn a b c hp3
  have e2 := hval z y x h1 h2 hzn a' b' c' (hp.trans hp3)
  rw [← e1] at e2
  exact Option.some.inj e2

/-- C04 (rejection): any other length panics. -/
theorem c04_wrong_length (n : Nat) (f : List α)
    (h1 : f.length ≠ n * (n + 1) * (n + 2) / 6) (h2 : f.length ≠ n * (n + 1) * (n + 2) / 6 + 2) :
    newFc3 n f = none := by
  unfold newFc3 stripHeader
  simp only [if_neg h1]
  split
  · rfl
  · rw [if_neg (by omega)]; rfl

/-- non-trivial instance: a two-coordinate file lists 000, 100, 110, 111; entry (0,1,0) is the
second value, with and without the header -/
example (h1 h2 v0 v1 v2 v3 : ℝ) :
    ∃ t : T3 ℝ, newFc3 2 [v0, v1, v2, v3] = some t ∧
      newFc3 2 [h1, h2, v0, v1, v2, v3] = some t ∧ t 0 1 0 = v1 ∧ t 1 0 1 = v2 ∧
      newFc3 2 [v0, v1] = none := by
  obtain ⟨t, ht1, ht2, hv⟩ := c04_values 2 [v0, v1, v2, v3] (by simp) h1 h2
  refine ⟨t, ht1, ht2, ?_, ?_, c04_wrong_length 2 [v0, v1] (by simp) (by simp)⟩
  · have := hv 1 0 0 (by decide) (by decide) (by decide) 0 1 0 (by decide)
    simpa [filePos3] using this
  · have := hv 1 1 0 (by decide) (by decide) (by decide) 1 0 1 (by decide)
    simpa [filePos3] using this

/-- C05: the quartic analogue of `c04_values`. -/
theorem c05_values (n : Nat) (vals : List α)
    (hl : vals.length = n * (n + 1) * (n + 2) * (n + 3) / 24) (h1 h2 : α) :
    ∃ t : T4 α, newFc4 n vals = some t ∧ newFc4 n (h1 :: h2 :: vals) = some t ∧
      ∀ i j k l, l ≤ k → k ≤ j → j ≤ i → i < n → ∀ a b c d, [a, b, c, d].Perm [i, j, k, l] →
        some (t a b c d) = vals[filePos4 i j k l]? := by
  obtain ⟨t, ht, hv⟩ := fc4_loop n vals hl
  refine ⟨t, ?_, ?_, hv⟩
  · simp [newFc4, stripHeader, hl, ht]
  · have h3 : ¬ (vals.length + 1 + 1 = vals.length) := by omega
    simp [newFc4, stripHeader, ← hl, ht, h3]

/-- C05 (full symmetry). -/
theorem c05_symmetric (n : Nat) (f : List α) (t : T4 α) (h : newFc4 n f = some t)
    (a b c d a' b' c' d' : Nat) (ha : a < n) (hb : b < n) (hc : c < n) (hd : d < n)
    (hp : [a', b', c', d'].Perm [a, b, c, d]) : t a' b' c' d' = t a b c d := by
  have hcases : ∃ vals : List α, vals.length = n * (n + 1) * (n + 2) * (n + 3) / 24 ∧
      newFc4 n vals = some t := by
    unfold newFc4 stripHeader at h
    simp only at h
    split at h
    · next hl => exact ⟨f, hl, by simpa [newFc4, stripHeader, hl] using h⟩
    · split at h
      · simp at h
      · split at h
        · next hl =>
          exact ⟨f.drop 2, by rw [List.length_drop, hl],
            by simpa [newFc4, stripHeader, hl] using h⟩
        · simp at h
  obtain ⟨vals, hl, hv⟩ := hcases
  obtain ⟨t', ht', _, hval⟩ := c05_values n vals hl (Arith.lit 0) (Arith.lit 0)
  rw [hv] at ht'
  obtain rfl := Option.some.inj ht'
  obtain ⟨x, y, z, w, h1, h2, h3, hp2⟩ := exists_sorted4 a b c d
  have hz : w ∈ [a, b, c, d] := hp2.mem_iff.mpr (by simp)
  have hzn : w < n := by simp at hz; omega
  have hp3 : [a, b, c, d].Perm [w, z, y, x] := hp2.trans (List.reverse_perm [w, z, y, x])
  have e1 := hval w z y x h1 h2 h3 hzn a b c d hp3
  have e2 := hval w z y x h1 h2 h3 hzn a' b' c' d' (hp.trans hp3)
  rw [← e1] at e2
  exact Option.some.inj e2

/-- C05 (rejection): any other length panics. -/
theorem c05_wrong_length (n : Nat) (f : List α)
    (h1 : f.length ≠ n * (n + 1) * (n + 2) * (n + 3) / 24)
    (h2 : f.length ≠ n * (n + 1) * (n + 2) * (n + 3) / 24 + 2) :
    newFc4 n f = none := by
  unfold newFc4 stripHeader
  simp only [if_neg h1]
  split
  · rfl
  · rw [if_neg (by omega)]; rfl

example (v0 v1 v2 v3 v4 : ℝ) :
    ∃ t : T4 ℝ, newFc4 2 [v0, v1, v2, v3, v4] = some t ∧ t 0 1 0 0 = v1 ∧ t 1 0 1 0 = v2 ∧
      t 1 0 1 1 = v3 ∧ newFc4 2 [v0, v1] = none := by
  obtain ⟨t, ht1, ht2, hv⟩ := c05_values 2 [v0, v1, v2, v3, v4] (by simp) v0 v0
  refine ⟨t, ht1, ?_, ?_, ?_, c05_wrong_length 2 [v0, v1] (by simp) (by simp)⟩
  · have := hv 1 0 0 0 (by decide) (by decide) (by decide) (by decide) 0 1 0 0 (by decide)
    simpa [filePos4] using this
  · have := hv 1 1 0 0 (by decide) (by decide) (by decide) (by decide) 1 0 1 0 (by decide)
    simpa [filePos4] using this
  · have := hv 1 1 1 0 (by decide) (by decide) (by decide) (by decide) 1 0 1 1 (by decide)
    simpa [filePos4] using this

/-- C06, the full statement: a Hessian file reads the same with and without the header. -/
def HeaderIrrelevant (α : Type) : Prop :=
  ∀ (n : Nat) (data : List α) (h1 h2 : α), data.length = n * n →
    loadFc2 n data = loadFc2 n (h1 :: h2 :: data)

omit [Arith α] in
/-- C06 is violated as soon as there are two different numbers: an unsymmetric 2x2 file reads
differently with a header. -/
theorem c06_violated (x y : α) (hxy : x ≠ y) : ¬ HeaderIrrelevant α := by
  intro h
  have h1 := h 2 [x, x, y, x] x x (by simp)
  have e1 : loadFc2 2 [x, x, y, x] = some (fromIterator 2 [x, x, y, x]) := rfl
  have e2 : loadFc2 2 [x, x, x, x, y, x] = some (fromRowSlice 2 [x, x, y, x]) := rfl
  rw [e1, e2, Option.some.injEq] at h1
  have h2 := congrFun (congrFun h1 0) 1
  simp [fromIterator, fromRowSlice] at h2
  exact hxy h2.symm

omit [Arith α] in
/-- C06, what holds (partial: agreement needs symmetric data): without header entry (i,j) is number
`j*n+i`, with header it is number `i*n+j`; the two matrices are transposes of each other, and they are
equal exactly when the data are symmetric. -/
theorem c06_transposed_partial (n : Nat) (data : List α) (h1 h2 : α) (hl : data.length = n * n) :
    ∃ m m' : DMat α, loadFc2 n data = some m ∧ loadFc2 n (h1 :: h2 :: data) = some m' ∧
      (∀ i j, i < n → j < n → m i j = data[j * n + i]? ∧ m' i j = data[i * n + j]?) ∧
      (∀ i j, m i j = m' j i) ∧
      (m = m' ↔ ∀ i j, i < n → j < n → data[i * n + j]? = data[j * n + i]?) := by
  refine ⟨fromIterator n data, fromRowSlice n data, by simp [loadFc2, hl], ?_, ?_, ?_, ?_⟩
  · have h3 : (h1 :: h2 :: data).length = n * n + 2 := by simp [hl]
    unfold loadFc2
    rw [h3, if_neg (by omega), if_neg (by omega), if_pos (by omega)]
    rfl
  · intro i j hi hj
    simp [fromIterator, fromRowSlice, hi, hj]
  · intro i j
    simp only [fromIterator, fromRowSlice, and_comm]
  · constructor
    · intro h i j hi hj
      have := congrFun (congrFun h i) j
      simp only [fromIterator, fromRowSlice, hi, hj, and_self, if_true] at this
      exact this.symm
    · intro h
      funext i j
      unfold fromIterator fromRowSlice
      split
      · next hc => exact (h i j hc.1 hc.2).symm
      · rfl

omit [Arith α] in
/-- C06 (rejection): any other length panics. -/
theorem c06_wrong_length (n : Nat) (data : List α)
    (h1 : data.length ≠ n * n) (h2 : data.length ≠ n * n + 2) : loadFc2 n data = none := by
  unfold loadFc2
  rw [if_neg h1]
  split
  · rfl
  · rw [if_neg (by omega)]

/-- non-trivial instances: a symmetric 2x2 file reads the same either way, an unsymmetric one does
not, and three numbers panic -/
example : loadFc2 2 [1, 2, 2, 5] = loadFc2 2 [9, 9, 1, 2, 2, 5] ∧ ¬ HeaderIrrelevant Nat ∧
    loadFc2 2 [1, 2, 3] = none := by
  refine ⟨?_, c06_violated 0 1 (by decide), c06_wrong_length 2 [1, 2, 3] (by decide) (by decide)⟩
  obtain ⟨m, m', h1, h2, _, _, h3⟩ := c06_transposed_partial 2 [1, 2, 2, 5] 9 9 (by decide)
  rw [h1, h2, h3.mpr]
  intro i j hi hj
  have : (i = 0 ∨ i = 1) ∧ (j = 0 ∨ j = 1) := by omega
  rcases this with ⟨rfl | rfl, rfl | rfl⟩ <;> rfl

end Verif
