import Verif.Model.Fermi
import Verif.Lemmas.Mode
import Mathlib.Tactic.Linarith
import Mathlib.Tactic.NormNum
import Mathlib.Algebra.Order.AbsoluteValue.Basic

/-! Lemmas about resonance detection. -/

namespace Verif

theorem corTest_mem {freq : Vec ℝ} {zmat : T3 ℝ} {i j z a : Nat} {c : Coriolis} :
    c ∈ corTest freq zmat i j z a ↔
      |freq i - freq j| ≤ 200 ∧ 0.25 ≤ |zmat i j z| ∧ c = ⟨i, j, a⟩ := by
  unfold corTest
  have : (CTOL : ℝ) = 200 := by simp [CTOL, lit_real]; norm_num
  have h2 : (ZTOL : ℝ) = 0.25 := by simp [ZTOL, lit_real]
  rw [this, h2]
  split
  · next h =>
    rw [Bool.and_eq_true, le_real, le_real] at h
    simp [abs_real] at h ⊢
    tauto
  · next h =>
    rw [Bool.and_eq_true, le_real, le_real] at h
    simp only [abs_real] at h
    simp
    tauto

theorem corTest_nodup {α : Type} [Arith α] (freq : Vec α) (zmat : T3 α) (i j z a : Nat) :
    (corTest freq zmat i j z a).Nodup := by
  unfold corTest; split <;> simp

theorem corTest_eq {α : Type} [Arith α] {freq : Vec α} {zmat : T3 α} {i j z a : Nat} {c : Coriolis}
    (h : c ∈ corTest freq zmat i j z a) : c = ⟨i, j, a⟩ := by
  unfold corTest at h
  split at h
  · simpa using h
  · simp at h

theorem darlingTest_mem {freq : Vec ℝ} {i j : Nat} {c : Darling} :
    c ∈ darlingTest freq i j ↔ |2 * freq i - 2 * freq j| ≤ 300 ∧ c = ⟨i, j⟩ := by
  unfold darlingTest
  have : (DDTOL : ℝ) = 300 := by simp [DDTOL, lit_real]; norm_num
  have h2 : (Arith.lit 2.0 : ℝ) = 2 := by simp [lit_real]; norm_num
  rw [this, h2]
  split
  · next h =>
    rw [le_real] at h
    simp [abs_real] at h ⊢
    tauto
  · next h =>
    rw [le_real] at h
    simp only [abs_real] at h
    simp
    tauto

theorem ferm1Test_mem {freq : Vec ℝ} {i j : Nat} {f3 : T3 ℝ} {c : Fermi1} :
    c ∈ ferm1Test freq i j f3 ↔ |2 * freq i - freq j| ≤ 200 ∧ 10 ≤ |f3 i i j| ∧ c = ⟨i, j⟩ := by
  unfold ferm1Test
  have : (FTOL1 : ℝ) = 200 := by simp [FTOL1, lit_real]; norm_num
  have h2 : (Arith.lit 2.0 : ℝ) = 2 := by simp [lit_real]; norm_num
  have h3 : (F3TOL : ℝ) = 10 := by simp [F3TOL, lit_real]; norm_num
  rw [this, h2, h3]
  split
  · next h =>
    rw [Bool.and_eq_true, le_real, le_real] at h
    simp [abs_real] at h ⊢
    tauto
  · next h =>
    rw [Bool.and_eq_true, le_real, le_real] at h
    simp only [abs_real] at h
    simp
    tauto

theorem aminjm_real (a b c : ℝ) : aminjm a b c = max a (max b c) := by
  have hs := List.pairwise_mergeSort (le := fun a b : ℝ => !Arith.lt b a)
    (by
      intro a b c h1 h2
      simp only [Bool.not_eq_true', ← Bool.not_eq_true, lt_real, not_lt] at *
      exact le_trans h1 h2)
    (by
      intro a b
      simp only [Bool.or_eq_true, Bool.not_eq_true', ← Bool.not_eq_true, lt_real, not_lt]
      exact le_total a b) [a, b, c]
  have hp := List.mergeSort_perm [a, b, c] (fun a b : ℝ => !Arith.lt b a)
  unfold aminjm
  generalize [a, b, c].mergeSort (fun a b : ℝ => !Arith.lt b a) = l at *
  match l, hp.length_eq with
  | [x, y, z], _ =>
    simp only [List.pairwise_cons, List.mem_cons, List.not_mem_nil, or_false, forall_eq_or_imp,
      forall_eq, Bool.not_eq_true', ← Bool.not_eq_true, lt_real, not_lt] at hs
    have h1 : ∀ w, w ∈ [x, y, z] ↔ w ∈ [a, b, c] := fun w => hp.mem_iff
    show z = _
    have hz : z ∈ [a, b, c] := (h1 z).1 (by simp)
    have ha : a ∈ [x, y, z] := (h1 a).2 (by simp)
    have hb : b ∈ [x, y, z] := (h1 b).2 (by simp)
    have hc : c ∈ [x, y, z] := (h1 c).2 (by simp)
    have hall : ∀ w ∈ [x, y, z], w ≤ z := by
      intro w hw
      simp only [List.mem_cons, List.not_mem_nil, or_false] at hw
      rcases hw with rfl | rfl | rfl
      · exact hs.1.2
      · exact hs.2.1
      · exact le_refl _
    apply le_antisymm
    · simp only [List.mem_cons, List.not_mem_nil, or_false] at hz
      rcases hz with rfl | rfl | rfl <;> simp
    · exact max_le (hall a ha) (max_le (hall b hb) (hall c hc))

theorem ferm2Test_mem {freq : Vec ℝ} {i j k : Nat} {f3 : T3 ℝ} {c : Fermi2} :
    c ∈ ferm2Test freq i j k f3 ↔ 10 ≤ |f3 i j k| ∧
      (|(freq i - freq j - freq k) * (-freq i + freq j - freq k) * (-freq i - freq j + freq k) *
          (freq i + freq j + freq k)| ≤ 1000 ∨
        |max (freq i - freq j - freq k) (max (-freq i + freq j - freq k) (-freq i - freq j + freq k))|
          ≤ 200) ∧ c = ⟨i, j, k⟩ := by
  unfold ferm2Test
  have : (DLTOL : ℝ) = 1000 := by simp [DLTOL, lit_real]; norm_num
  have h2 : (DFTOL : ℝ) = 200 := by simp [DFTOL, lit_real]; norm_num
  have h3 : (F3TOL : ℝ) = 10 := by simp [F3TOL, lit_real]; norm_num
  simp only [this, h2, h3, aminjm_real]
  split
  · next h =>
    rw [Bool.and_eq_true, Bool.or_eq_true, le_real, le_real, le_real] at h
    simp only [abs_real] at h
    simp only [List.mem_singleton]
    tauto
  · next h =>
    rw [Bool.and_eq_true, Bool.or_eq_true, le_real, le_real, le_real] at h
    simp only [abs_real] at h
    simp only [List.not_mem_nil, false_iff]
    tauto

theorem ferm2Test'_mem {freq : Vec ℝ} {i j k : Nat} {f3 : T3 ℝ} {c : Fermi2} :
    c ∈ ferm2Test' freq i j k f3 ↔ 10 ≤ |f3 i j k| ∧
      (|(freq i - freq j - freq k) * (-freq i + freq j - freq k) * (-freq i - freq j + freq k) *
          (freq i + freq j + freq k)| ≤ 1000 ∨ |freq i - freq j - freq k| ≤ 200 ∨
        |-freq i + freq j - freq k| ≤ 200 ∨ |-freq i - freq j + freq k| ≤ 200) ∧ c = ⟨i, j, k⟩ := by
  unfold ferm2Test'
  have : (DLTOL : ℝ) = 1000 := by simp [DLTOL, lit_real]; norm_num
  have h2 : (DFTOL : ℝ) = 200 := by simp [DFTOL, lit_real]; norm_num
  have h3 : (F3TOL : ℝ) = 10 := by simp [F3TOL, lit_real]; norm_num
  simp only [this, h2, h3]
  split
  · next h =>
    rw [Bool.and_eq_true, Bool.or_eq_true, Bool.or_eq_true, Bool.or_eq_true, le_real, le_real, le_real,
      le_real, le_real] at h
    simp only [abs_real] at h
    simp only [List.mem_singleton]
    tauto
  · next h =>
    rw [Bool.and_eq_true, Bool.or_eq_true, Bool.or_eq_true, Bool.or_eq_true, le_real, le_real, le_real,
      le_real, le_real] at h
    simp only [abs_real] at h
    simp only [List.not_mem_nil, false_iff]
    tauto

theorem test_nodup {α : Type} [Arith α] (freq : Vec α) (f3 : T3 α) (i j k : Nat) :
    (darlingTest freq i j).Nodup ∧ (ferm1Test freq i j f3).Nodup ∧ (ferm2Test freq i j k f3).Nodup := by
  refine ⟨?_, ?_, ?_⟩
  · unfold darlingTest; split <;> simp
  · unfold ferm1Test; split <;> simp
  · unfold ferm2Test; simp only; split <;> simp

/-- A nested loop reports nothing twice if each body reports at most once and the reports name the loop
index. -/
theorem nodup_flatMap_of {ι β κ : Type} (L : List ι) (f : ι → List β) (key : β → κ) (name : ι → κ)
    (hL : L.Nodup) (hinj : ∀ x ∈ L, ∀ y ∈ L, name x = name y → x = y)
    (hf : ∀ x ∈ L, (f x).Nodup) (hk : ∀ x ∈ L, ∀ b ∈ f x, key b = name x) : (L.flatMap f).Nodup := by
  rw [List.nodup_flatMap]
  refine ⟨hf, ?_⟩
  refine (List.Pairwise.and_mem.1 hL).imp ?_
  rintro a b ⟨ha, hb, hab⟩
  simp only [Function.onFun, List.disjoint_left]
  intro x hx hx'
  exact hab (hinj a ha b hb ((hk a ha x hx).symm.trans (hk b hb x hx')))

theorem getD_range {n i : Nat} (h : i < n) : (List.range n).getD i 0 = i := by
  simp [List.getD_eq_getElem?_getD, h]

end Verif
