import Verif.Lemmas.Fermi

/-! Properties of the resonance lookup tables: C27. -/

namespace Verif

/-- C27: the check table is 1 at `(i, j, k)` exactly when a listed resonance couples `i` and `j` (in
either order) to `k`, and 0 otherwise. -/
theorem c27_check_table (f1 : List Fermi1) (f2 : List Fermi2) (i j k : Nat) :
    ((makeFermiChecks f1 f2).ifrmchk i j k ≠ 0 ↔
      (i = j ∧ (⟨i, k⟩ : Fermi1) ∈ f1) ∨ (⟨i, j, k⟩ : Fermi2) ∈ f2 ∨ (⟨j, i, k⟩ : Fermi2) ∈ f2) ∧
    ((makeFermiChecks f1 f2).ifrmchk i j k = 0 ∨ (makeFermiChecks f1 f2).ifrmchk i j k = 1) := by
  rw [makeFermiChecks, chk_fold2, chk_fold1]
  constructor
  · constructor
    · intro h
      split at h
      · next h' =>
        obtain ⟨⟨a, b, c⟩, hf, hc, (⟨h1, h2⟩ | ⟨h1, h2⟩)⟩ := h' <;> simp only at hc h1 h2 <;> subst hc h1 h2
        · exact .inr (.inl hf)
        · exact .inr (.inr hf)
      · split at h
        · next h' =>
          obtain ⟨⟨a, b⟩, hf, h1, h2, h3⟩ := h'
          simp only at h1 h2 h3
          subst h1 h2 h3
          exact .inl ⟨rfl, hf⟩
        · exact absurd rfl h
    · rintro (⟨rfl, h⟩ | h | h)
      · split
        · omega
        · rw [if_pos ⟨_, h, rfl, rfl, rfl⟩]; omega
      · rw [if_pos ⟨_, h, rfl, .inl ⟨rfl, rfl⟩⟩]; omega
      · rw [if_pos ⟨_, h, rfl, .inr ⟨rfl, rfl⟩⟩]; omega
  · split_ifs <;> simp

/-- C27: the type-1 lookup gives the partner of the last listed resonance of that overtone, and nothing
for an overtone never listed. -/
theorem c27_type1 (f1 : List Fermi1) (f2 : List Fermi2) (i j : Nat) :
    (makeFermiChecks f1 f2).ifrm1 i = some j ↔
      ∃ l₁ l₂, f1 = l₁ ++ ⟨i, j⟩ :: l₂ ∧ ∀ f ∈ l₂, f.i ≠ i := by
  rw [ifrm1_fold, foldl_insert_last]
  simp only [HMap.empty, reduceCtorEq, and_false, or_false]
  constructor
  · rintro ⟨l₁, ⟨a, b⟩, l₂, rfl, rfl, rfl, h⟩
    exact ⟨l₁, l₂, rfl, h⟩
  · rintro ⟨l₁, l₂, rfl, h⟩
    exact ⟨l₁, _, l₂, rfl, rfl, rfl, h⟩

/-- C27: the type-2 lookup gives, for an ordered pair `(i, j)`, the partner of the last resonance with that
key in the combined list: the type-1 resonances (as `(i, i)`) followed by the type-2 ones. -/
theorem c27_type2 (f1 : List Fermi1) (f2 : List Fermi2) (i j k : Nat) :
    (makeFermiChecks f1 f2).ifrm2 (i, j) = some k ↔
      (∃ l₁ l₂, f2 = l₁ ++ ⟨i, j, k⟩ :: l₂ ∧ ∀ f ∈ l₂, ¬ (f.i = i ∧ f.j = j)) ∨
      ((∀ f ∈ f2, ¬ (f.i = i ∧ f.j = j)) ∧ i = j ∧
        ∃ l₁ l₂, f1 = l₁ ++ ⟨i, k⟩ :: l₂ ∧ ∀ f ∈ l₂, f.i ≠ i) := by
  rw [ifrm2_fold, List.foldl_append, foldl_insert_last]
  refine or_congr ?_ (and_congr ?_ ?_)
  · constructor
    · rintro ⟨l₁, ⟨a, b, c⟩, l₂, rfl, hk, rfl, h⟩
      simp only [Prod.mk.injEq] at hk
      obtain ⟨rfl, rfl⟩ := hk
      exact ⟨l₁, l₂, rfl, by simpa only [ne_eq, Prod.mk.injEq] using h⟩
    · rintro ⟨l₁, l₂, rfl, h⟩
      exact ⟨l₁, _, l₂, rfl, rfl, rfl, by simpa only [ne_eq, Prod.mk.injEq] using h⟩
  · simp only [ne_eq, Prod.mk.injEq]
  · rw [List.foldl_map, foldl_insert_last (fun f : Fermi1 => (f.i, f.i)) (fun f => f.j)]
    simp only [HMap.empty, reduceCtorEq, and_false, or_false, ne_eq, Prod.mk.injEq]
    constructor
    · rintro ⟨l₁, ⟨a, b⟩, l₂, rfl, ⟨rfl, rfl⟩, rfl, h⟩
      exact ⟨rfl, l₁, l₂, rfl, fun f hf e => h f hf ⟨e, e⟩⟩
    · rintro ⟨rfl, l₁, l₂, rfl, h⟩
      exact ⟨l₁, _, l₂, rfl, ⟨rfl, rfl⟩, rfl, fun f hf e => h f hf e.1⟩

/-- C27: the order-insensitive query succeeds exactly when one of the two orders has that partner. -/
theorem c27_either (m : Ifrm2) (i j k : Nat) :
    (m.checkEither (i, j) k = true ↔ m (i, j) = some k ∨ m (j, i) = some k) ∧
    (m.check (i, j) k = true ↔ m (i, j) = some k) ∧
    (m.getEither (i, j) = none ↔ m (i, j) = none ∧ m (j, i) = none) := by
  refine ⟨?_, ?_, ?_⟩
  · unfold HMap.checkEither
    by_cases h : m (i, j) = some k <;> simp [h]
  · simp [HMap.check]
  · unfold HMap.getEither
    cases h : m (i, j) <;> simp

/-- Non-trivial tables: an overtone listed twice and a type-2 resonance; the earlier partner is lost from
the lookups but stays in the check table. -/
example : let t := makeFermiChecks [⟨3, 0⟩, ⟨3, 1⟩] [⟨5, 4, 2⟩]
    t.ifrm1 3 = some 1 ∧ t.ifrm2 (3, 3) = some 1 ∧ t.ifrm2 (5, 4) = some 2 ∧ t.ifrm2 (4, 5) = none ∧
    t.ifrmchk 3 3 0 = 1 ∧ t.ifrmchk 3 3 1 = 1 ∧ t.ifrmchk 4 5 2 = 1 ∧ t.ifrmchk 4 5 3 = 0 ∧
    t.ifrm2.checkEither (4, 5) 2 = true := by
  decide

end Verif
