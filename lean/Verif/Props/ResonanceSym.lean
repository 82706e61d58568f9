import Verif.Props.Resonance
import Verif.Lemmas.Xcals

/-! # C26, C63, C64: exactly which type-2 Fermi and Darling–Dennison resonances symmetric tops report -/

namespace Verif

/-- `i` stands at place `p` of the list. -/
theorem place_iff (l : List Nat) (p i : Nat) : l[p]? = some i ↔ p < l.length ∧ l.getD p 0 = i := by
  rw [List.getElem?_eq_some_iff]
  constructor
  · rintro ⟨h, e⟩; exact ⟨h, by simp [List.getD_eq_getElem?_getD, h, e]⟩
  · rintro ⟨h, e⟩; exact ⟨h, by simpa [List.getD_eq_getElem?_getD, h] using e⟩

theorem mem_place (l : List Nat) (i : Nat) : i ∈ l ↔ ∃ p < l.length, l.getD p 0 = i := by
  rw [List.mem_iff_getElem?]
  simp only [place_iff]

/-- The two forms of the test for type-2 resonances agree for non-negative frequencies: the largest of the three
differences is small exactly if one of them is. -/
theorem largest_small_iff {a b c : ℝ} (ha : 0 ≤ a) (hb : 0 ≤ b) (hc : 0 ≤ c) :
    |max (a - b - c) (max (-a + b - c) (-a - b + c))| ≤ 200 ↔
      |a - b - c| ≤ 200 ∨ |-a + b - c| ≤ 200 ∨ |-a - b + c| ≤ 200 := by
  constructor
  · intro h
    rcases max_choice (a - b - c) (max (-a + b - c) (-a - b + c)) with e | e
    · rw [e] at h; exact .inl h
    · rcases max_choice (-a + b - c) (-a - b + c) with e' | e'
      · rw [e, e'] at h; exact .inr (.inl h)
      · rw [e, e'] at h; exact .inr (.inr h)
  · intro hd
    rw [abs_le]
    rcases hd with h | h | h <;> rw [abs_le] at h <;> refine ⟨?_, ?_⟩
    · rw [le_max_iff]; left; exact h.1
    · refine max_le h.2 (max_le ?_ ?_) <;> linarith
    · rw [le_max_iff, le_max_iff]; right; left; exact h.1
    · refine max_le ?_ (max_le h.2 ?_) <;> linarith
    · rw [le_max_iff, le_max_iff]; right; right; exact h.1
    · refine max_le ?_ (max_le ?_ h.2) <;> linarith

/-- C26, type-2 Fermi: exactly what a symmetric top with non-negative frequencies reports. The numerical criterion
holds, and the triple is one of: two different places of the list of non-degenerate modes and any non-degenerate mode;
a non-degenerate mode other than the first and two degenerate ones; a degenerate mode other than the first, a
degenerate mode other than the last and any mode. -/
theorem c26_fermi2_iff (r : Rotor) (hr : axialTop r) (modes : List Mode) (freq : Vec ℝ) (f3 : T3 ℝ)
    (hpos : ∀ i, 0 ≤ freq i) (L : List Fermi2) (hL : fermi2 r modes freq f3 = some L) (i j k : Nat) :
    let N := nonDeg modes
    let D := (degPairs modes).map (·.1)
    (⟨i, j, k⟩ : Fermi2) ∈ L ↔ 10 ≤ |f3 i j k| ∧
      (|(freq i - freq j - freq k) * (-freq i + freq j - freq k) * (-freq i - freq j + freq k) *
          (freq i + freq j + freq k)| ≤ 1000 ∨
        |freq i - freq j - freq k| ≤ 200 ∨ |-freq i + freq j - freq k| ≤ 200 ∨ |-freq i - freq j + freq k| ≤ 200) ∧
      ((∃ p q : Nat, q < p ∧ N[p]? = some i ∧ N[q]? = some j ∧ k ∈ N) ∨
        (∃ p : Nat, 1 ≤ p ∧ N[p]? = some i ∧ j ∈ D ∧ k ∈ D) ∨
        ∃ p q : Nat, 1 ≤ p ∧ q + 1 < D.length ∧ D[p]? = some i ∧ D[q]? = some j ∧ (k ∈ N ∨ k ∈ D)) := by
  intro N D
  have hL' : L = fermi2Sym N D freq f3 := by
    show L = fermi2Sym (nonDeg modes) ((degPairs modes).map (·.1)) freq f3
    rw [← part_nonDeg, ← part_degPairs]
    rcases hr with rfl | rfl | rfl <;> exact (Option.some.inj hL).symm
  subst hL'
  simp only [fermi2Sym, List.mem_append, List.mem_flatMap, List.mem_range, List.mem_range'_1, ferm2Test_mem,
    ferm2Test'_mem, largest_small_iff (hpos _) (hpos _) (hpos _), place_iff, mem_place N, mem_place D, Fermi2.mk.injEq]
  constructor
  · rintro ((⟨p, hp, (⟨q, hq, s, hs, h1, h2, rfl, rfl, rfl⟩ | ⟨q, hq, s, hs, h1, h2, rfl, rfl, rfl⟩)⟩ |
      ⟨p, hp, q, hq, (⟨s, hs, h1, h2, rfl, rfl, rfl⟩ | ⟨s, hs, h1, h2, rfl, rfl, rfl⟩)⟩) |
      ⟨p, hp, q, hq, (⟨s, hs, h1, h2, rfl, rfl, rfl⟩ | ⟨s, hs, h1, h2, rfl, rfl, rfl⟩)⟩)
    · exact ⟨h1, h2, .inl ⟨p, q, hq, ⟨by omega, rfl⟩, ⟨by omega, rfl⟩, s, hs, rfl⟩⟩
    · exact ⟨h1, h2, .inr (.inl ⟨p, hp.1, ⟨by omega, rfl⟩, ⟨q, hq, rfl⟩, s, hs, rfl⟩)⟩
    · exact ⟨h1, h2, .inr (.inr ⟨p, q, hp.1, by omega, ⟨by omega, rfl⟩, ⟨by omega, rfl⟩, .inl ⟨s, hs, rfl⟩⟩)⟩
    · exact ⟨h1, h2, .inr (.inr ⟨p, q, hp.1, by omega, ⟨by omega, rfl⟩, ⟨by omega, rfl⟩, .inr ⟨s, hs, rfl⟩⟩)⟩
    · exact ⟨h1, h2, .inr (.inr ⟨p, q, by omega, by omega, ⟨by omega, rfl⟩, ⟨by omega, rfl⟩, .inl ⟨s, hs, rfl⟩⟩)⟩
    · exact ⟨h1, h2, .inr (.inr ⟨p, q, by omega, by omega, ⟨by omega, rfl⟩, ⟨by omega, rfl⟩, .inr ⟨s, hs, rfl⟩⟩)⟩
  · rintro ⟨h1, h2, ⟨p, q, hq, ⟨hp, rfl⟩, ⟨-, rfl⟩, s, hs, rfl⟩ | ⟨p, hp, ⟨hp', rfl⟩, ⟨q, hq, rfl⟩, s, hs, rfl⟩ |
      ⟨p, q, hp, hq, ⟨hp', rfl⟩, ⟨hq', rfl⟩, ⟨s, hs, rfl⟩ | ⟨s, hs, rfl⟩⟩⟩
    · exact .inl (.inl ⟨p, by omega, .inl ⟨q, hq, s, hs, h1, h2, rfl, rfl, rfl⟩⟩)
    · exact .inl (.inl ⟨p, by omega, .inr ⟨q, hq, s, hs, h1, h2, rfl, rfl, rfl⟩⟩)
    · exact .inl (.inr ⟨p, by omega, q, by omega, .inl ⟨s, hs, h1, h2, rfl, rfl, rfl⟩⟩)
    · exact .inl (.inr ⟨p, by omega, q, by omega, .inr ⟨s, hs, h1, h2, rfl, rfl, rfl⟩⟩)

/-- C26, Darling–Dennison: exactly what a symmetric top reports: the criterion holds, and the pair is one of two
different places of the list of non-degenerate modes, the later first; a non-degenerate mode other than the first and a
degenerate one; two different places of the list of degenerate modes, the later first. -/
theorem c26_darling_iff (r : Rotor) (hr : axialTop r) (modes : List Mode) (freq : Vec ℝ)
    (L : List Darling) (hL : darling r modes freq = some L) (i j : Nat) :
    let N := nonDeg modes
    let D := (degPairs modes).map (·.1)
    (⟨i, j⟩ : Darling) ∈ L ↔ |2 * freq i - 2 * freq j| ≤ 300 ∧
      ((∃ p q : Nat, q < p ∧ N[p]? = some i ∧ N[q]? = some j) ∨ (∃ p : Nat, 1 ≤ p ∧ N[p]? = some i ∧ j ∈ D) ∨
        ∃ p q : Nat, q < p ∧ D[p]? = some i ∧ D[q]? = some j) := by
  intro N D
  rw [darling_sym_mem r hr modes freq L hL, part_nonDeg, part_degPairs]
  simp only [place_iff, Darling.mk.injEq]
  constructor
  · rintro (⟨p, h1, hp, (⟨q, hq, h, rfl, rfl⟩ | ⟨q, hq, h, rfl, rfl⟩)⟩ | ⟨p, q, hq, hp, h, rfl, rfl⟩)
    · exact ⟨h, .inl ⟨p, q, hq, ⟨hp, rfl⟩, ⟨hq.trans hp, rfl⟩⟩⟩
    · exact ⟨h, .inr (.inl ⟨p, h1, ⟨hp, rfl⟩, List.mem_map.2 ⟨q, hq, rfl⟩⟩)⟩
    · exact ⟨h, .inr (.inr ⟨p, q, hq, ⟨hp, rfl⟩, ⟨hq.trans hp, rfl⟩⟩)⟩
  · rintro ⟨h, ⟨p, q, hq, ⟨hp, rfl⟩, ⟨-, rfl⟩⟩ | ⟨p, h1, ⟨hp, rfl⟩, hj⟩ | ⟨p, q, hq, ⟨hp, rfl⟩, ⟨-, rfl⟩⟩⟩
    · exact .inl ⟨p, by omega, hp, .inl ⟨q, hq, h, rfl, rfl⟩⟩
    · obtain ⟨q, hq, rfl⟩ := List.mem_map.1 hj
      exact .inl ⟨p, h1, hp, .inr ⟨q, hq, h, rfl, rfl⟩⟩
    · exact .inr ⟨p, q, hq, hp, h, rfl, rfl⟩

/-- Both theorems applied to two degenerate modes and two non-degenerate ones: the second non-degenerate mode (5) is
examined together with the degenerate modes, the first (4) is not. -/
example : ∃ L M, fermi2 .oblateSymmTop [.i2 0 1, .i2 2 3, .i1 4, .i1 5] (fun _ => (100 : ℝ)) (fun _ _ _ => 20) = some L ∧
    darling .oblateSymmTop [.i2 0 1, .i2 2 3, .i1 4, .i1 5] (fun _ => (100 : ℝ)) = some M ∧
    (⟨5, 0, 2⟩ : Fermi2) ∈ L ∧ (⟨4, 0, 2⟩ : Fermi2) ∉ L ∧ (⟨5, 0⟩ : Darling) ∈ M ∧ (⟨4, 0⟩ : Darling) ∉ M := by
  have hF := c26_fermi2_iff .oblateSymmTop (.inl rfl) [.i2 0 1, .i2 2 3, .i1 4, .i1 5] (fun _ => (100 : ℝ))
    (fun _ _ _ => 20) (fun _ => by norm_num) _ rfl
  have hD := c26_darling_iff .oblateSymmTop (.inl rfl) [.i2 0 1, .i2 2 3, .i1 4, .i1 5] (fun _ => (100 : ℝ)) _ rfl
  have four : ∀ p, ([4, 5] : List Nat)[p]? = some 4 → p = 0 := fun p h => by
    match p with
    | 0 => rfl
    | 1 => simp at h
    | p + 2 => simp at h
  refine ⟨_, _, rfl, rfl, (hF ..).2 ⟨by norm_num, by norm_num, .inr (.inl ⟨1, le_rfl, rfl, by decide, by decide⟩)⟩, ?_,
    (hD ..).2 ⟨by norm_num, .inr (.inl ⟨1, le_rfl, rfl, by decide⟩)⟩, ?_⟩
  · intro h
    obtain ⟨-, -, ⟨p, q, hq, hp, -⟩ | ⟨p, h1, hp, -⟩ | ⟨p, q, -, -, hp, -⟩⟩ := (hF ..).1 h
    · have := four p hp; omega
    · have := four p hp; omega
    · exact absurd (List.mem_of_getElem? hp) (by decide)
  · intro h
    obtain ⟨-, ⟨p, q, hq, hp, -⟩ | ⟨p, h1, hp, -⟩ | ⟨p, q, -, hp, -⟩⟩ := (hD ..).1 h
    · have := four p hp; omega
    · have := four p hp; omega
    · exact absurd (List.mem_of_getElem? hp) (by decide)

end Verif
