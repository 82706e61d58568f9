import Verif.Model.Compare
import Verif.Spec.Compare
import Verif.Lemmas.Loop
import Verif.Extended

/-!
# C118: the comparisons used by the tests look at every constant
-/

namespace Verif

/-- C118, quartic constants: the comparison accepts exactly the pairs in which every constant differs by at most the tolerance, the list of
constants leaves none out, and the difference of two sets of constants is taken constant by constant. -/
theorem c118_quartic (a b : Quartic ℝ) (ε : ℝ) :
    (a.close b ε = true ↔ ∀ f ∈ quarticFields, |f a - f b| ≤ ε) ∧
    ((∀ f ∈ quarticFields, f a = f b) → a = b) ∧
    (∀ f ∈ quarticFields, f (a.minus b) = f a - f b) := by
  refine ⟨?_, ?_, ?_⟩
  · simp [Quartic.close, floatClose, quarticFields, le_real, abs_real, and_assoc]
  · intro h
    cases a; cases b
    simpa [quarticFields] using h
  · simp [Quartic.minus, quarticFields]

/-- Two different sets of constants, accepted with one tolerance and not with another. -/
example : ∃ a b : Quartic ℝ, a.close b 2 = true ∧ a.close b (1 / 2) = false ∧ ¬(∀ f ∈ quarticFields, f a = f b) := by
  refine ⟨Quartic.default, { (Quartic.default : Quartic ℝ) with de := 1 }, ?_, ?_, ?_⟩
  · rw [(c118_quartic _ _ _).1]
    simp [quarticFields, Quartic.default, lit_real]
  · rw [← Bool.not_eq_true, (c118_quartic _ _ _).1]
    norm_num [quarticFields, Quartic.default, lit_real]
  · simp [quarticFields, Quartic.default, lit_real]

/-- C118, sextic constants. -/
theorem c118_sextic (a b : Sextic ℝ) (ε : ℝ) :
    (a.close b ε = true ↔ ∀ f ∈ sexticFields, |f a - f b| ≤ ε) ∧
    ((∀ f ∈ sexticFields, f a = f b) → a = b) := by
  refine ⟨?_, ?_⟩
  · simp [Sextic.close, floatClose, sexticFields, le_real, abs_real, and_assoc]
  · intro h
    cases a; cases b
    simpa [sexticFields] using h

/-- Two different sets of constants, accepted with one tolerance and not with another. -/
example : ∃ a b : Sextic ℝ, a.close b 2 = true ∧ a.close b (1 / 2) = false ∧ ¬(∀ f ∈ sexticFields, f a = f b) := by
  refine ⟨Sextic.default, { (Sextic.default : Sextic ℝ) with h3 := 1 }, ?_, ?_, ?_⟩
  · rw [(c118_sextic _ _ _).1]
    simp [sexticFields, Sextic.default, lit_real]
  · rw [← Bool.not_eq_true, (c118_sextic _ _ _).1]
    norm_num [sexticFields, Sextic.default, lit_real]
  · simp [sexticFields, Sextic.default, lit_real]

/-- C118, rotational constants: the states must be the same. -/
theorem c118_rot (a b : Rot ℝ) (ε : ℝ) :
    a.close b ε = true ↔ a.state = b.state ∧ |a.a - b.a| ≤ ε ∧ |a.b - b.b| ≤ ε ∧ |a.c - b.c| ≤ ε := by
  simp [Rot.close, floatClose, le_real, abs_real, and_assoc]

/-- Two reported lines, accepted with one tolerance and not with another, and not for different states. -/
example : ∃ a b c : Rot ℝ, a.close b 2 = true ∧ a.close b (1 / 2) = false ∧ a.close c 2 = false := by
  refine ⟨⟨.i1st [0], 1, 2, 3⟩, ⟨.i1st [0], 1, 3, 3⟩, ⟨.i1st [1], 1, 2, 3⟩, ?_, ?_, ?_⟩
  · rw [c118_rot]; norm_num
  · rw [← Bool.not_eq_true, c118_rot]; norm_num
  · rw [← Bool.not_eq_true, c118_rot]; norm_num

theorem floatClose_nan (x y ε : Ext) (h : x = .nan ∨ y = .nan) : floatClose x y ε = false := by
  rcases h with rfl | rfl
  · rfl
  · cases x <;> rfl

/-- C118, undefined constants: in a comparison with any tolerance, a constant that is not a number is never accepted, on either side. -/
theorem c118_nan (ε : Ext) :
    (∀ a b : Quartic Ext, (∃ f ∈ quarticFields, f a = .nan ∨ f b = .nan) → a.close b ε = false) ∧
    (∀ a b : Sextic Ext, (∃ f ∈ sexticFields, f a = .nan ∨ f b = .nan) → a.close b ε = false) ∧
    (∀ a b : Rot Ext, (a.a = .nan ∨ b.a = .nan) ∨ (a.b = .nan ∨ b.b = .nan) ∨ (a.c = .nan ∨ b.c = .nan) → a.close b ε = false) := by
  have key := fun x y => mt (floatClose_nan x y ε)
  simp only [Bool.not_eq_false] at key
  refine ⟨fun a b ⟨f, hf, h⟩ => ?_, fun a b ⟨f, hf, h⟩ => ?_, fun a b h => ?_⟩
  · by_contra hc
    rw [Bool.not_eq_false] at hc
    have all : ∀ f ∈ quarticFields, floatClose (f a) (f b) ε = true := by
      simpa [Quartic.close, quarticFields, and_assoc] using hc
    exact key _ _ (all f hf) h
  · by_contra hc
    rw [Bool.not_eq_false] at hc
    have all : ∀ f ∈ sexticFields, floatClose (f a) (f b) ε = true := by
      simpa [Sextic.close, sexticFields, and_assoc] using hc
    exact key _ _ (all f hf) h
  · by_contra hc
    rw [Bool.not_eq_false] at hc
    simp only [Rot.close, Bool.and_eq_true] at hc
    rcases h with h | h | h
    · exact key _ _ hc.1.1.2 h
    · exact key _ _ hc.1.2 h
    · exact key _ _ hc.2 h

/-- A set of constants with an undefined `De` does not even pass a comparison with itself. -/
example : ∃ a : Quartic Ext, (∃ f ∈ quarticFields, f a = .nan ∨ f a = .nan) ∧ a.close a (.fin 1) = false := by
  have h : ∃ f ∈ quarticFields, f ({ (Quartic.default : Quartic Ext) with de := .nan } : Quartic Ext) = .nan ∨
      f ({ (Quartic.default : Quartic Ext) with de := .nan } : Quartic Ext) = .nan :=
    ⟨(·.de), by simp [quarticFields], Or.inl rfl⟩
  exact ⟨_, h, (c118_nan _).1 _ _ h⟩

end Verif
