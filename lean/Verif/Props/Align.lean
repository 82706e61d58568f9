import Verif.Lemmas.Align
import Verif.Lemmas.Mode
import Mathlib.LinearAlgebra.Span.Basic
import Mathlib.Tactic.IntervalCases

/-!
# C50, C51, C70: alignment of degenerate modes
-/

namespace Verif

open Finset

/-- The columns `a`, `b` have the inner product of an orthonormal set, for all columns below `K`. -/
def OrthoCols (n K : Nat) (l : Nat → Nat → ℝ) : Prop :=
  ∀ a b, a < K → b < K → ∑ i ∈ range n, l i a * l i b = if a = b then 1 else 0

/-- An orthonormal mode matrix stays orthonormal. -/
theorem c50_orthonormal (cfg : AlignCfg) (freq w : Vec ℝ) (lxm lx lxm' lx' : Mat ℝ) (K : Nat)
    (hK : cfg.nvib ≤ K) (h : bdegnl cfg freq w lxm lx = some (lxm', lx'))
    (ho : OrthoCols cfg.n3n K lxm) : OrthoCols cfg.n3n K lxm' := by
  refine bdegnl_inv cfg freq w lxm lx lxm' lx' h (OrthoCols cfg.n3n K) ho ?_
  intro m1 m2 l l' θ e h12 h2 _ hP he ht a b ha hb
  have hcs := Real.sin_sq_add_cos_sq θ
  have hee : e * e = 1 := by rcases he with rfl | rfl <;> norm_num
  have hval : ∀ i ∈ range cfg.n3n, ∀ j, l' i j =
      if j = m1 then Real.cos θ * l i m1 + Real.sin θ * l i m2
      else if j = m2 then e * (Real.cos θ * l i m2 - Real.sin θ * l i m1) else l i j := by
    intro i hi j
    rw [ht i j, if_pos (mem_range.mp hi)]
  generalize Real.cos θ = c at *
  generalize Real.sin θ = s at *
  -- inner products of the old columns
  have G := hP
  unfold OrthoCols at G
  have exp : ∀ (p q r t : ℝ) (x y u v : Nat),
      ∑ i ∈ range cfg.n3n, (p * l i x + q * l i y) * (r * l i u + t * l i v) =
        p * r * (∑ i ∈ range cfg.n3n, l i x * l i u) + p * t * (∑ i ∈ range cfg.n3n, l i x * l i v) +
        q * r * (∑ i ∈ range cfg.n3n, l i y * l i u) + q * t * (∑ i ∈ range cfg.n3n, l i y * l i v) := by
    intro p q r t x y u v
    simp only [mul_sum, ← sum_add_distrib]
    exact sum_congr rfl fun i _ => by ring
  -- every new column is a combination of two old ones
  have rep : ∀ j, ∃ p q : ℝ, ∃ x y : Nat, (j < K → x < K ∧ y < K) ∧
      (∀ i ∈ range cfg.n3n, l' i j = p * l i x + q * l i y) ∧
      ((j = m1 ∧ p = c ∧ q = s ∧ x = m1 ∧ y = m2) ∨
       (j = m2 ∧ p = -(e * s) ∧ q = e * c ∧ x = m1 ∧ y = m2) ∨
       (j ≠ m1 ∧ j ≠ m2 ∧ p = 1 ∧ q = 0 ∧ x = j ∧ y = j)) := by
    intro j
    by_cases h1 : j = m1
    · refine ⟨c, s, m1, m2, fun _ => ⟨by omega, by omega⟩, fun i hi => ?_, Or.inl ⟨h1, rfl, rfl, rfl, rfl⟩⟩
      rw [hval i hi, if_pos h1]
    · by_cases h2 : j = m2
      · refine ⟨-(e * s), e * c, m1, m2, fun _ => ⟨by omega, by omega⟩, fun i hi => ?_,
          Or.inr (Or.inl ⟨h2, rfl, rfl, rfl, rfl⟩)⟩
        rw [hval i hi, if_neg h1, if_pos h2]; ring
      · refine ⟨1, 0, j, j, fun h => ⟨h, h⟩, fun i hi => ?_, Or.inr (Or.inr ⟨h1, h2, rfl, rfl, rfl, rfl⟩)⟩
        rw [hval i hi, if_neg h1, if_neg h2]; ring
  obtain ⟨p, q, x, y, hxy, hA, cA⟩ := rep a
  obtain ⟨r, t, u, v, huv, hB, cB⟩ := rep b
  obtain ⟨hx, hy⟩ := hxy ha
  obtain ⟨hu, hv⟩ := huv hb
  rw [sum_congr rfl fun i hi => by rw [hA i hi, hB i hi], exp, G x u hx hu, G x v hx hv, G y u hy hu,
    G y v hy hv]
  have hne : m1 ≠ m2 := by omega
  have hne' : m2 ≠ m1 := by omega
  rcases cA with ⟨rfl, rfl, rfl, rfl, rfl⟩ | ⟨rfl, rfl, rfl, rfl, rfl⟩ | ⟨ha1, ha2, rfl, rfl, rfl, rfl⟩ <;>
  rcases cB with ⟨rfl, rfl, rfl, rfl, rfl⟩ | ⟨rfl, rfl, rfl, rfl, rfl⟩ | ⟨hb1, hb2, rfl, rfl, rfl, rfl⟩
  · simp only [hne, hne', if_true, if_false]; linear_combination hcs
  · simp only [hne, hne', if_true, if_false]; ring
  · simp only [hb1.symm, hb2.symm, if_false]; ring
  · simp only [hne, hne', if_true, if_false]; ring
  · simp only [hne, hne', if_true, if_false]
    linear_combination (s ^ 2 + c ^ 2) * hee + hcs
  · simp only [hb1.symm, hb2.symm, if_false]; ring
  · simp only [ha1, ha2, if_false]; ring
  · simp only [ha1, ha2, if_false]; ring
  · ring

/-- Columns of modes without a near-degenerate partner, and the non-vibrational columns, are not touched. -/
theorem c50_untouched (cfg : AlignCfg) (freq w : Vec ℝ) (lxm lx lxm' lx' : Mat ℝ)
    (h : bdegnl cfg freq w lxm lx = some (lxm', lx')) (j : Nat)
    (hj : j < cfg.nvib → ∀ k, k < cfg.nvib → k ≠ j → alignTol cfg.linear ≤ |freq k - freq j|) (i : Nat) :
    lxm' i j = lxm i j := by
  refine bdegnl_inv cfg freq w lxm lx lxm' lx' h (fun l => l i j = lxm i j) rfl ?_
  intro m1 m2 l l' θ e h12 h2 hf hP he ht
  have h1 : j ≠ m1 := by
    rintro rfl
    have := hj (by omega) m2 h2 (by omega)
    rw [abs_sub_comm] at this
    linarith
  have h2' : j ≠ m2 := by
    rintro rfl
    have := hj h2 m1 (by omega) (by omega)
    linarith
  rw [ht i j, if_neg h1, if_neg h2', ite_self]
  exact hP

/-- the columns in a set of modes, as vectors of the first `n` rows -/
def colsOf (n : Nat) (l : Nat → Nat → ℝ) (P : Set Nat) : Set (Fin n → ℝ) := (fun j i => l i j) '' P

/-- For every set of modes that contains with a mode all its near-degenerate partners, the space spanned by
its columns is unchanged. -/
theorem c50_span (cfg : AlignCfg) (freq w : Vec ℝ) (lxm lx lxm' lx' : Mat ℝ)
    (h : bdegnl cfg freq w lxm lx = some (lxm', lx')) (P : Set Nat)
    (hc : ∀ a b, a < cfg.nvib → b < cfg.nvib → |freq a - freq b| < alignTol cfg.linear →
      (a ∈ P ↔ b ∈ P)) :
    Submodule.span ℝ (colsOf cfg.n3n lxm' P) = Submodule.span ℝ (colsOf cfg.n3n lxm P) := by
  refine bdegnl_inv cfg freq w lxm lx lxm' lx' h
    (fun l => Submodule.span ℝ (colsOf cfg.n3n l P) = Submodule.span ℝ (colsOf cfg.n3n lxm P)) rfl ?_
  intro m1 m2 l l' θ e h12 h2 hf hP he ht
  rw [← hP]
  have hmem := hc m1 m2 (by omega) h2 hf
  have hcs := Real.sin_sq_add_cos_sq θ
  have hee : e * e = 1 := by rcases he with rfl | rfl <;> norm_num
  by_cases hm : m1 ∈ P
  · have hm2 := hmem.mp hm
    have hne : ¬ m2 = m1 := by omega
    have n1 : (fun i : Fin cfg.n3n => l' i m1) =
        Real.cos θ • (fun i : Fin cfg.n3n => l i m1) + Real.sin θ • (fun i : Fin cfg.n3n => l i m2) := by
      funext i
      simp only [ht _ m1, i.2, if_true, Pi.add_apply, Pi.smul_apply, smul_eq_mul]
    have n2 : (fun i : Fin cfg.n3n => l' i m2) =
        (-(e * Real.sin θ)) • (fun i : Fin cfg.n3n => l i m1) +
          (e * Real.cos θ) • (fun i : Fin cfg.n3n => l i m2) := by
      funext i
      simp only [ht _ m2, i.2, if_true, hne, if_false, Pi.add_apply, Pi.smul_apply, smul_eq_mul]
      ring
    have o1 : (fun i : Fin cfg.n3n => l i m1) =
        Real.cos θ • (fun i : Fin cfg.n3n => l' i m1) +
          (-(e * Real.sin θ)) • (fun i : Fin cfg.n3n => l' i m2) := by
      rw [n1, n2]; funext i
      simp only [Pi.add_apply, Pi.smul_apply, smul_eq_mul]
      linear_combination (-(l i m1)) * hcs + (l i m2 * Real.sin θ * Real.cos θ -
        l i m1 * Real.sin θ ^ 2) * hee
    have o2 : (fun i : Fin cfg.n3n => l i m2) =
        Real.sin θ • (fun i : Fin cfg.n3n => l' i m1) +
          (e * Real.cos θ) • (fun i : Fin cfg.n3n => l' i m2) := by
      rw [n1, n2]; funext i
      simp only [Pi.add_apply, Pi.smul_apply, smul_eq_mul]
      linear_combination (-(l i m2)) * hcs + (l i m1 * Real.sin θ * Real.cos θ -
        l i m2 * Real.cos θ ^ 2) * hee
    have oth : ∀ j, j ≠ m1 → j ≠ m2 → (fun i : Fin cfg.n3n => l' i j) = fun i : Fin cfg.n3n => l i j := by
      intro j h1 h2
      funext i
      rw [ht i j, if_pos i.2, if_neg h1, if_neg h2]
    apply le_antisymm
    · rw [Submodule.span_le]
      rintro _ ⟨j, hj, rfl⟩
      have s1 := Submodule.subset_span (R := ℝ) (Set.mem_image_of_mem (fun j (i : Fin cfg.n3n) => l i j) hm)
      have s2 := Submodule.subset_span (R := ℝ) (Set.mem_image_of_mem (fun j (i : Fin cfg.n3n) => l i j) hm2)
      by_cases h1 : j = m1
      · subst h1
        change (fun i : Fin cfg.n3n => l' i j) ∈ _
        rw [n1]
        exact Submodule.add_mem _ (Submodule.smul_mem _ _ s1) (Submodule.smul_mem _ _ s2)
      · by_cases h2 : j = m2
        · subst h2
          change (fun i : Fin cfg.n3n => l' i j) ∈ _
          rw [n2]
          exact Submodule.add_mem _ (Submodule.smul_mem _ _ s1) (Submodule.smul_mem _ _ s2)
        · change (fun i : Fin cfg.n3n => l' i j) ∈ _
          rw [oth j h1 h2]
          exact Submodule.subset_span ⟨j, hj, rfl⟩
    · rw [Submodule.span_le]
      rintro _ ⟨j, hj, rfl⟩
      have s1 := Submodule.subset_span (R := ℝ) (Set.mem_image_of_mem (fun j (i : Fin cfg.n3n) => l' i j) hm)
      have s2 := Submodule.subset_span (R := ℝ) (Set.mem_image_of_mem (fun j (i : Fin cfg.n3n) => l' i j) hm2)
      by_cases h1 : j = m1
      · subst h1
        change (fun i : Fin cfg.n3n => l i j) ∈ _
        rw [o1]
        exact Submodule.add_mem _ (Submodule.smul_mem _ _ s1) (Submodule.smul_mem _ _ s2)
      · by_cases h2 : j = m2
        · subst h2
          change (fun i : Fin cfg.n3n => l i j) ∈ _
          rw [o2]
          exact Submodule.add_mem _ (Submodule.smul_mem _ _ s1) (Submodule.smul_mem _ _ s2)
        · change (fun i : Fin cfg.n3n => l i j) ∈ _
          rw [← oth j h1 h2]
          exact Submodule.subset_span ⟨j, hj, rfl⟩
  · have hm2 : m2 ∉ P := fun h => hm (hmem.mpr h)
    have : colsOf cfg.n3n l' P = colsOf cfg.n3n l P := by
      unfold colsOf
      apply Set.image_congr
      intro j hj
      funext i
      have h1 : j ≠ m1 := fun h => hm (h ▸ hj)
      have h2 : j ≠ m2 := fun h => hm2 (h ▸ hj)
      rw [ht i j, if_neg h1, if_neg h2, ite_self]
    rw [this]

/-- Modes that are exactly degenerate eigenvectors of a matrix stay eigenvectors with their eigenvalues. -/
theorem c50_eigenvectors (cfg : AlignCfg) (freq w : Vec ℝ) (lxm lx lxm' lx' : Mat ℝ) (K : Nat) (hK : cfg.nvib ≤ K)
    (h : bdegnl cfg freq w lxm lx = some (lxm', lx')) (H : Nat → Nat → ℝ) (ev : Nat → ℝ)
    (hdeg : ∀ a b, a < cfg.nvib → b < cfg.nvib → |freq a - freq b| < alignTol cfg.linear → ev a = ev b)
    (hH : ∀ i j, i < cfg.n3n → j < K → ∑ k ∈ range cfg.n3n, H i k * lxm k j = ev j * lxm i j) :
    ∀ i j, i < cfg.n3n → j < K → ∑ k ∈ range cfg.n3n, H i k * lxm' k j = ev j * lxm' i j := by
  refine bdegnl_inv cfg freq w lxm lx lxm' lx' h
    (fun l => ∀ i j, i < cfg.n3n → j < K → ∑ k ∈ range cfg.n3n, H i k * l k j = ev j * l i j) hH ?_
  intro m1 m2 l l' θ e h12 h2 hf hP he ht i j hi hj
  have hv := hdeg m1 m2 (by omega) h2 hf
  have e1 := hP i m1 hi (by omega)
  have e2 := hP i m2 hi (by omega)
  by_cases h1 : j = m1
  · subst h1
    have : ∀ k ∈ range cfg.n3n, H i k * l' k j =
        Real.cos θ * (H i k * l k j) + Real.sin θ * (H i k * l k m2) := by
      intro k hk
      rw [ht k j, if_pos (mem_range.mp hk), if_pos rfl]; ring
    rw [sum_congr rfl this, sum_add_distrib, ← mul_sum, ← mul_sum, e1, e2, ht i j, if_pos hi, if_pos rfl, hv]
    ring
  · by_cases h2 : j = m2
    · subst h2
      have : ∀ k ∈ range cfg.n3n, H i k * l' k j =
          (e * Real.cos θ) * (H i k * l k j) + (-(e * Real.sin θ)) * (H i k * l k m1) := by
        intro k hk
        rw [ht k j, if_pos (mem_range.mp hk), if_neg h1, if_pos rfl]; ring
      rw [sum_congr rfl this, sum_add_distrib, ← mul_sum, ← mul_sum, e1, e2, ht i j, if_pos hi, if_neg h1,
        if_pos rfl, hv]
      ring
    · have : ∀ k ∈ range cfg.n3n, H i k * l' k j = H i k * l k j := by
        intro k hk
        rw [ht k j, if_neg h1, if_neg h2, ite_self]
      rw [sum_congr rfl this, hP i j hi hj, ht i j, if_neg h1, if_neg h2, ite_self]

/-- The Cartesian matrix stays the mass-scaled mode matrix. -/
theorem c50_mass_scaled (cfg : AlignCfg) (freq w : Vec ℝ) (lxm lx lxm' lx' : Mat ℝ) (K : Nat)
    (h : bdegnl cfg freq w lxm lx = some (lxm', lx')) (hn : cfg.n3n = 3 * cfg.natom)
    (hlx : ∀ i j, i < cfg.n3n → j < K → lx i j = lxm i j / Real.sqrt (w (i / 3))) :
    ∀ i j, i < cfg.n3n → j < K → lx' i j = lxm' i j / Real.sqrt (w (i / 3)) := by
  unfold bdegnl at h
  split at h
  · simp at h
  · refine foldlM_option_inv (fun st : Mat ℝ × Mat ℝ =>
      ∀ i j, i < cfg.n3n → j < K → st.2 i j = st.1 i j / Real.sqrt (w (i / 3))) _ _ _ (lxm', lx') hlx ?_ h
    rintro st p st' hp hP hst i j hi hK
    obtain ⟨h1, h2⟩ := incPairs_lt hp
    unfold alignStep at hst
    split at hst
    · simp only [Option.bind_eq_bind, Option.bind_eq_some_iff] at hst
      obtain ⟨l', hl, hst⟩ := hst
      obtain rfl := Option.some.inj (show some _ = some st' from hst)
      obtain ⟨θ, e, _, he, ht⟩ := alignLxm_turned (by omega) hl
      dsimp only
      rw [rescaleLx_apply]
      by_cases hj : j = p.1 ∨ j = p.2
      · rw [if_pos ⟨by omega, hj⟩]; ring
      · rw [if_neg (fun h => hj h.2), hP i j hi hK]
        rw [not_or] at hj
        rw [ht i j, if_neg hj.1, if_neg hj.2, ite_self]
    · obtain rfl := Option.some.inj hst
      exact hP i j hi hK

/-! ### Where the aligned modes lie -/

theorem toler_real : (TOLER : ℝ) = 1 / 100000 := by rw [TOLER, lit_real]; norm_num

theorem tiny_iff (l : Mat ℝ) (r m : Nat) : tiny l r m = true ↔ |l r m| < 1 / 100000 := by
  unfold tiny; rw [lt_real, abs_real, toler_real]

theorem half_pi_real : (FRAC_PI_2 : ℝ) = Real.pi / 2 := by
  unfold FRAC_PI_2; rw [pi_real, lit_real]; norm_num

/-- When the first mode has an x component on the reference atom, the second has none afterwards. -/
theorem c51_first_x_partial (cfg : AlignCfg) (m1 m2 : Nat) (hm : m1 ≠ m2) (l l' : Mat ℝ)
    (h : alignLxm cfg m1 m2 l = some l') (hn : 3 * cfg.iatom < cfg.n3n)
    (hx : 1 / 100000 ≤ |l (3 * cfg.iatom) m1|) : l' (3 * cfg.iatom) m2 = 0 := by
  obtain ⟨θ, e, hθ, he, ht⟩ := alignLxm_turned hm h
  have hnt : tiny l (3 * cfg.iatom) m1 = false := by
    rw [← Bool.not_eq_true, tiny_iff]; exact not_lt.mpr hx
  have ha : l (3 * cfg.iatom) m1 ≠ 0 := by
    intro h0; rw [h0, abs_zero] at hx; norm_num at hx
  unfold alignAngle allTiny at hθ
  simp only [hnt, Bool.false_and, Bool.not_false, if_true] at hθ
  obtain rfl := Option.some.inj hθ
  rw [ht, if_pos hn, if_neg hm.symm, if_pos rfl, atan_real]
  have : Real.sin (Real.arctan (l (3 * cfg.iatom) m2 / l (3 * cfg.iatom) m1)) =
      l (3 * cfg.iatom) m2 / l (3 * cfg.iatom) m1 *
        Real.cos (Real.arctan (l (3 * cfg.iatom) m2 / l (3 * cfg.iatom) m1)) := by
    rw [Real.sin_arctan, Real.cos_arctan]; ring
  rw [this]
  field_simp
  ring

theorem abs_turn_le (c s a b t : ℝ) (hc : |c| ≤ 1) (hs : |s| ≤ 1) (ha : |a| ≤ t) (hb : |b| ≤ t) :
    |c * a - s * b| ≤ 2 * t := by
  have h1 : |c * a| ≤ t := by
    rw [abs_mul]; nlinarith [abs_nonneg c, abs_nonneg a]
  have h2 : |s * b| ≤ t := by
    rw [abs_mul]; nlinarith [abs_nonneg s, abs_nonneg b]
  have := abs_sub (c * a) (s * b)
  linarith

/-- Whenever one of the two modes moves the reference atom in the xy plane, the second mode has no x component
there afterwards, up to twice the tolerance. -/
theorem c51_second_x_partial (cfg : AlignCfg) (m1 m2 : Nat) (hm : m1 ≠ m2) (l l' : Mat ℝ)
    (h : alignLxm cfg m1 m2 l = some l') (hn : 3 * cfg.iatom < cfg.n3n)
    (hxy : ¬ (|l (3 * cfg.iatom) m1| < 1 / 100000 ∧ |l (3 * cfg.iatom) m2| < 1 / 100000 ∧
      |l (3 * cfg.iatom + 1) m1| < 1 / 100000 ∧ |l (3 * cfg.iatom + 1) m2| < 1 / 100000)) :
    |l' (3 * cfg.iatom) m2| ≤ 2 / 100000 := by
  by_cases hx : 1 / 100000 ≤ |l (3 * cfg.iatom) m1|
  · rw [c51_first_x_partial cfg m1 m2 hm l l' h hn hx, abs_zero]; norm_num
  · obtain ⟨θ, e, hθ, he, ht⟩ := alignLxm_turned hm h
    rw [not_le] at hx
    have h1 : tiny l (3 * cfg.iatom) m1 = true := (tiny_iff _ _ _).mpr hx
    have hall : allTiny (3 * cfg.iatom) m1 m2 l = false := by
      rw [← Bool.not_eq_true]
      intro hh
      unfold allTiny at hh
      simp only [Bool.and_eq_true, tiny_iff] at hh
      exact hxy ⟨hh.1.1.1, hh.1.1.2, hh.1.2, hh.2⟩
    rw [ht, if_pos hn, if_neg hm.symm, if_pos rfl]
    have hab : |e * (Real.cos θ * l (3 * cfg.iatom) m2 - Real.sin θ * l (3 * cfg.iatom) m1)| =
        |Real.cos θ * l (3 * cfg.iatom) m2 - Real.sin θ * l (3 * cfg.iatom) m1| := by
      rw [abs_mul]; rcases he with rfl | rfl <;> norm_num
    rw [hab]
    unfold alignAngle at hθ
    simp only [hall, h1, Bool.not_false, Bool.not_true, if_true] at hθ
    by_cases h2 : tiny l (3 * cfg.iatom) m2 = true
    · have h2' := (tiny_iff _ _ _).mp h2
      have := abs_turn_le (Real.cos θ) (Real.sin θ) (l (3 * cfg.iatom) m2) (l (3 * cfg.iatom) m1) (1 / 100000)
        (Real.abs_cos_le_one θ) (Real.abs_sin_le_one θ) h2'.le hx.le
      linarith
    · rw [Bool.not_eq_true] at h2
      simp only [h2, Bool.not_false, Bool.false_eq_true, if_false, if_true] at hθ
      obtain rfl := Option.some.inj hθ
      rw [half_pi_real, Real.cos_pi_div_two, Real.sin_pi_div_two]
      have : (0 : ℝ) * l (3 * cfg.iatom) m2 - 1 * l (3 * cfg.iatom) m1 = -(l (3 * cfg.iatom) m1) := by ring
      rw [this, abs_neg]
      linarith

/-- When the reference atom does not move in the xy plane (out-of-plane modes), the first mode has no z
component there afterwards, up to the tolerance. -/
theorem c51_out_of_plane_partial (cfg : AlignCfg) (m1 m2 : Nat) (hm : m1 ≠ m2) (l l' : Mat ℝ)
    (h : alignLxm cfg m1 m2 l = some l') (hn : 3 * cfg.iatom + 2 < cfg.n3n)
    (hxy : |l (3 * cfg.iatom) m1| < 1 / 100000 ∧ |l (3 * cfg.iatom) m2| < 1 / 100000 ∧
      |l (3 * cfg.iatom + 1) m1| < 1 / 100000 ∧ |l (3 * cfg.iatom + 1) m2| < 1 / 100000) :
    |l' (3 * cfg.iatom + 2) m1| ≤ 1 / 100000 ∧
      (1 / 100000 < |l (3 * cfg.iatom + 2) m2| → l' (3 * cfg.iatom + 2) m1 = 0) ∧ cfg.linear = false := by
  obtain ⟨θ, e, hθ, he, ht⟩ := alignLxm_turned hm h
  have hall : allTiny (3 * cfg.iatom) m1 m2 l = true := by
    unfold allTiny
    simp only [Bool.and_eq_true, tiny_iff]
    exact ⟨⟨⟨hxy.1, hxy.2.1⟩, hxy.2.2.1⟩, hxy.2.2.2⟩
  rw [ht, if_pos hn, if_pos rfl]
  unfold alignAngle at hθ
  simp only [hall, Bool.not_true, Bool.false_eq_true, if_false] at hθ
  cases hlin : cfg.linear with
  | true => rw [hlin] at hθ; simp at hθ
  | false =>
    rw [hlin] at hθ
    simp only [Bool.false_eq_true, if_false, lt_real, abs_real, toler_real] at hθ
    split at hθ
    · next hz =>
      have hb : l (3 * cfg.iatom + 2) m2 ≠ 0 := by
        intro h0; rw [h0, abs_zero] at hz; norm_num at hz
      obtain rfl := Option.some.inj hθ
      have hl : (Arith.lit (-1.0) : ℝ) = -1 := by rw [lit_real]; norm_num
      rw [hl, atan_real]
      have : Real.sin (Real.arctan (-1 * l (3 * cfg.iatom + 2) m1 / l (3 * cfg.iatom + 2) m2)) =
          (-1 * l (3 * cfg.iatom + 2) m1 / l (3 * cfg.iatom + 2) m2) *
            Real.cos (Real.arctan (-1 * l (3 * cfg.iatom + 2) m1 / l (3 * cfg.iatom + 2) m2)) := by
        rw [Real.sin_arctan, Real.cos_arctan]; ring
      have hzero : Real.cos (Real.arctan (-1 * l (3 * cfg.iatom + 2) m1 / l (3 * cfg.iatom + 2) m2)) *
          l (3 * cfg.iatom + 2) m1 +
          Real.sin (Real.arctan (-1 * l (3 * cfg.iatom + 2) m1 / l (3 * cfg.iatom + 2) m2)) *
          l (3 * cfg.iatom + 2) m2 = 0 := by
        rw [this]; field_simp; ring
      rw [hzero, abs_zero]
      exact ⟨by norm_num, fun _ => rfl, rfl⟩
    · next hz =>
      split at hθ
      · obtain rfl := Option.some.inj hθ
        rw [half_pi_real, Real.cos_pi_div_two, Real.sin_pi_div_two]
        have : (0 : ℝ) * l (3 * cfg.iatom + 2) m1 + 1 * l (3 * cfg.iatom + 2) m2 =
          l (3 * cfg.iatom + 2) m2 := by ring
        rw [this]
        exact ⟨not_lt.mp hz, fun h => absurd h hz, rfl⟩
      · simp at hθ

/-- The relative sign chosen for linear molecules: the x component of the first mode and the y component of the
second on the reference atom do not have the same sign. -/
theorem c51_linear_sign_partial (cfg : AlignCfg) (m1 m2 : Nat) (hm : m1 ≠ m2) (l l' : Mat ℝ)
    (hlin : cfg.linear = true) (h : alignLxm cfg m1 m2 l = some l') (hn : 3 * cfg.iatom + 1 < cfg.n3n) :
    l' (3 * cfg.iatom) m1 * l' (3 * cfg.iatom + 1) m2 ≤ 0 := by
  unfold alignLxm at h
  simp only [Option.bind_eq_bind, Option.bind_eq_some_iff] at h
  obtain ⟨θ, hθ, h⟩ := h
  generalize rotateCols cfg.n3n m1 m2 (Arith.cos θ) (Arith.sin θ) l = t at h
  unfold fixSign at h
  rw [if_pos hlin] at h
  obtain rfl := Option.some.inj h
  split
  · next hp =>
    rw [lt_real, lit_real] at hp
    rw [negateCol_apply, negateCol_apply, if_neg (fun h => hm h.2), if_pos ⟨hn, rfl⟩]
    norm_num at hp
    linarith
  · next hp =>
    rw [lt_real, lit_real] at hp
    norm_num at hp
    exact hp

/-- The two modes of the counterexample: orthonormal columns; on the reference atom the x components are 0 and
about 2e-6, the y components 3/5 and about 4/5. -/
noncomputable def badPair : Nat → Nat → ℝ := fun i j =>
  if j = 0 then (if i = 1 then 3 / 5 else if i = 3 then 4 / 5 else 0)
  else if j = 1 then
    (if i = 0 then 2 * 10 ^ 6 / (10 ^ 12 + 1)
     else if i = 1 then (10 ^ 12 - 1) / (10 ^ 12 + 1) * (4 / 5)
     else if i = 3 then -((10 ^ 12 - 1) / (10 ^ 12 + 1) * (3 / 5)) else 0)
  else 0

/-- The code violates the alignment when both x components vanish: the angle that should remove the y component
of the first mode is computed from the vanishing x component of the second. Here the first mode keeps more than
half of its length along y on the reference atom. (The sign check does not change the first mode; a linear
molecule is taken to avoid it. `_partial`: the claim itself is false.) -/
theorem c51_violated : ∃ (cfg : AlignCfg) (l l' : Mat ℝ), OrthoCols cfg.n3n 2 l ∧
    3 * cfg.iatom + 1 < cfg.n3n ∧
    |l (3 * cfg.iatom) 0| < 1 / 100000 ∧ |l (3 * cfg.iatom) 1| < 1 / 100000 ∧
    alignLxm cfg 0 1 l = some l' ∧ 1 / 2 < |l' (3 * cfg.iatom + 1) 0| := by
  let cfg : AlignCfg := ⟨true, 2, 6, 2, 0, 0, none⟩
  have hx0 : |badPair 0 0| < 1 / 100000 := by norm_num [badPair]
  have hx1 : |badPair 0 1| < 1 / 100000 := by
    simp only [badPair]; norm_num
  have hy1 : ¬ |badPair 1 1| < 1 / 100000 := by
    simp only [badPair]; norm_num
  have t0 : tiny badPair 0 0 = true := (tiny_iff _ _ _).mpr hx0
  have t1 : tiny badPair 0 1 = true := (tiny_iff _ _ _).mpr hx1
  have t2 : tiny badPair 1 1 = false := by rw [← Bool.not_eq_true, tiny_iff]; exact hy1
  have hang : alignAngle true 0 0 1 badPair =
      some (Arith.atan (Arith.lit (-1.0) * badPair 1 0 / badPair 0 1)) := by
    unfold alignAngle allTiny
    simp [t0, t1, t2]
  have hsome : ∃ l', alignLxm cfg 0 1 badPair = some l' := alignLxm_runs cfg 0 1 _ _ hang (.inl rfl)
  obtain ⟨l', hl'⟩ := hsome
  refine ⟨cfg, badPair, l', ?_, by decide, hx0, hx1, hl', ?_⟩
  · intro a b ha hb
    interval_cases a <;> interval_cases b <;> simp only [cfg, sum_range_succ, sum_range_zero, badPair] <;>
      norm_num
  · obtain ⟨θ, e, hθ, he, ht⟩ := alignLxm_turned (by decide) hl'
    rw [show cfg.linear = true from rfl, show 3 * cfg.iatom = 0 from rfl, hang] at hθ
    obtain rfl := Option.some.inj hθ
    rw [show 3 * cfg.iatom + 1 = 1 from rfl, ht, if_pos (by decide), if_pos rfl, atan_real, Real.sin_arctan,
      Real.cos_arctan]
    have hT : (Arith.lit (-1.0) : ℝ) * badPair 1 0 / badPair 0 1 = -(3 * (10 ^ 12 + 1) / 10 ^ 7) := by
      rw [lit_real]; simp only [badPair]; norm_num
    rw [hT]
    have h10 : badPair 1 0 = 3 / 5 := by norm_num [badPair]
    have h11 : badPair 1 1 = (10 ^ 12 - 1) / (10 ^ 12 + 1) * (4 / 5) := by norm_num [badPair]
    rw [h10, h11]
    have hpos : (0 : ℝ) < 1 + (-(3 * (10 ^ 12 + 1) / 10 ^ 7)) ^ 2 := by positivity
    set r := Real.sqrt (1 + (-(3 * (10 ^ 12 + 1) / 10 ^ 7)) ^ 2) with hr
    have hr0 : 0 < r := Real.sqrt_pos.mpr hpos
    have hr2 : r < 310000 := by
      rw [hr, Real.sqrt_lt' (by norm_num)]; norm_num
    rw [lt_abs]
    right
    have : -(1 / r * (3 / 5) + -(3 * (10 ^ 12 + 1) / 10 ^ 7) / r *
        ((10 ^ 12 - 1) / (10 ^ 12 + 1) * (4 / 5))) =
        (3 * (10 ^ 12 + 1) / 10 ^ 7 * ((10 ^ 12 - 1) / (10 ^ 12 + 1) * (4 / 5)) - 3 / 5) / r := by
      ring
    rw [this, lt_div_iff₀ hr0]
    nlinarith

/-- a degenerate pair turned by an angle against the axes -/
noncomputable def goodPair : Nat → Nat → ℝ := fun i j =>
  if j = 0 then (if i = 0 then 3 / 5 else if i = 1 then 4 / 5 else 0)
  else if j = 1 then (if i = 0 then -4 / 5 else if i = 1 then 3 / 5 else 0)
  else (if i = 2 ∧ j = 2 then 1 else 0)

theorem goodPair_step : ∃ l', alignLxm ⟨true, 2, 3, 1, 0, 0, none⟩ 0 1 goodPair = some l' := by
  have t0 : tiny goodPair 0 0 = false := by
    rw [← Bool.not_eq_true, tiny_iff]; norm_num [goodPair]
  have hang : alignAngle true 0 0 1 goodPair = some (Arith.atan (goodPair 0 1 / goodPair 0 0)) := by
    unfold alignAngle allTiny
    simp [t0]
  exact alignLxm_runs ⟨true, 2, 3, 1, 0, 0, none⟩ 0 1 _ _ hang (.inl rfl)

/-- The hypotheses of the C50 and C51 theorems are met: the pair is orthonormal and is aligned, its first mode
has an x component. -/
theorem goodPair_runs : ∃ r, bdegnl ⟨true, 2, 3, 1, 0, 0, none⟩ (fun _ => 500) (fun _ => 1) goodPair goodPair =
    some r := by
  obtain ⟨l', hl⟩ := goodPair_step
  refine ⟨(l', rescaleLx 1 (fun _ => 1) 0 1 l' goodPair), ?_⟩
  have hp : incPairs 2 = [(0, 1)] := by decide
  have hc : close (500 : ℝ) 500 (alignTol true) = true := by
    unfold close; rw [lt_real, abs_real]; norm_num [alignTol, lit_real]
  unfold bdegnl
  rw [if_neg (by decide)]
  simp only [hp, List.foldlM_cons, List.foldlM_nil, alignStep, hc, hl, Option.bind_eq_bind, Option.bind_some]
  rfl

example : OrthoCols 3 3 goodPair ∧ 1 / 100000 ≤ |goodPair 0 0| ∧ goodPair 0 1 ≠ 0 ∧
    ∀ l', alignLxm ⟨true, 2, 3, 1, 0, 0, none⟩ 0 1 goodPair = some l' → l' 0 1 = 0 := by
  refine ⟨?_, by norm_num [goodPair], by norm_num [goodPair], fun l' h =>
    c51_first_x_partial ⟨true, 2, 3, 1, 0, 0, none⟩ 0 1 (by decide) goodPair l' h (by decide)
      (by norm_num [goodPair])⟩
  intro a b ha hb
  interval_cases a <;> interval_cases b <;> simp only [sum_range_succ, sum_range_zero, goodPair] <;>
    norm_num

example : ¬ (|goodPair (3 * 0) 0| < 1 / 100000 ∧ |goodPair (3 * 0) 1| < 1 / 100000 ∧
    |goodPair (3 * 0 + 1) 0| < 1 / 100000 ∧ |goodPair (3 * 0 + 1) 1| < 1 / 100000) := by
  norm_num [goodPair]

/-- an out-of-plane pair of a planar molecule: the reference atom moves along z in the second mode -/
noncomputable def zPair : Nat → Nat → ℝ := fun i j => if i = 2 ∧ j ≤ 1 then 1 / 2 else 0

example : ∃ l', alignLxm ⟨false, 2, 3, 1, 0, 3, some 0⟩ 0 1 zPair = some l' ∧ l' 2 0 = 0 := by
  have ht : ∀ r m, r ≠ 2 → tiny zPair r m = true := by
    intro r m hr; rw [tiny_iff]; norm_num [zPair, hr]
  have hz : Arith.lt (TOLER : ℝ) (Arith.abs (zPair 2 1)) = true := by
    rw [lt_real, abs_real, toler_real]; norm_num [zPair]
  have hs : ∃ l', alignLxm ⟨false, 2, 3, 1, 0, 3, some 0⟩ 0 1 zPair = some l' := by
    have hang : ∃ θ, alignAngle false 0 0 1 zPair = some θ := by
      refine ⟨Arith.atan (Arith.lit (-1.0) * zPair 2 0 / zPair 2 1), ?_⟩
      unfold alignAngle allTiny
      simp [ht 0 0 (by decide), ht 0 1 (by decide), ht 1 0 (by decide), ht 1 1 (by decide), hz]
    obtain ⟨θ, hθ⟩ := hang
    exact alignLxm_runs ⟨false, 2, 3, 1, 0, 3, some 0⟩ 0 1 _ _ hθ (.inr ⟨0, rfl⟩)
  obtain ⟨l', hl'⟩ := hs
  have hsm : ∀ r m, r ≠ 2 → |zPair r m| < 1 / 100000 := fun r m hr => (tiny_iff _ _ _).mp (ht r m hr)
  exact ⟨l', hl', (c51_out_of_plane_partial ⟨false, 2, 3, 1, 0, 3, some 0⟩ 0 1 (by decide) zPair l' hl'
    (by decide) ⟨hsm _ _ (by decide), hsm _ _ (by decide), hsm _ _ (by decide), hsm _ _ (by decide)⟩).2.1
      (by norm_num [zPair])⟩

/-! ### C70: which pairs are aligned -/

theorem alignTol_real (linear : Bool) : (alignTol linear : ℝ) = if linear then 1 else 1 / 20 := by
  unfold alignTol; cases linear <;> norm_num [lit_real]

/-- Every pair listed as doubly degenerate passes the alignment test of a linear molecule, and the test of a
symmetric top if the two frequencies differ by less than 0.05. -/
theorem c70_aligned_partial (rotor : Rotor) (hr : rotor.isSymTop = true) (linear : Bool) (nvib : Nat)
    (freq : Vec ℝ) (i j : Nat) (h : Mode.i2 i j ∈ degModes rotor nvib freq)
    (hc : linear = true ∨ |freq i - freq j| < 1 / 20) :
    (i, j) ∈ incPairs nvib ∧ close (freq i) (freq j) (alignTol linear) = true := by
  rcases (mem_degModes_sym hr).1 h with ⟨p, hp, e⟩ | ⟨⟨a, b⟩, hp, e⟩ | ⟨_, _, _, _, e⟩
  · simp at e
  · simp only [Mode.i2.injEq] at e
    obtain ⟨rfl, rfl⟩ := e
    have h' := degDoubles_iff.mp hp
    refine ⟨(List.mem_filter.1 hp).1, ?_⟩
    unfold close
    rw [lt_real, abs_real, alignTol_real]
    rcases hc with rfl | hc
    · have := h'.2.1
      norm_num at this ⊢
      linarith
    · cases linear
      · simpa using hc
      · norm_num; linarith
  · simp at e

example : Mode.i2 0 1 ∈ degModes .linear 2 (fun i => if i = 0 then (500 : ℝ) else 500.08) := by
  refine (mem_degModes_sym rfl).2 (.inr (.inl ⟨(0, 1), degDoubles_iff.2 ⟨by omega, ?_⟩, rfl⟩))
  have ht : degTriples 2 (fun i => if i = 0 then (500 : ℝ) else 500.08) = [] := by
    have : incTriples 2 = [] := by decide
    simp [degTriples, this]
  rw [ht]
  refine ⟨?_, ?_, ?_, rfl, rfl⟩ <;> norm_num

/-- The two cutoffs disagree: two modes of a symmetric top 0.07 apart are listed as one doubly degenerate mode,
but `bdegnl` leaves every mode matrix as it is. -/
theorem c70_violated : ∃ freq : Vec ℝ, Mode.i2 0 1 ∈ degModes .oblateSymmTop 2 freq ∧
    ∀ (cfg : AlignCfg) (w : Vec ℝ) (lxm lx : Mat ℝ), cfg.linear = false → cfg.nvib = 2 →
      bdegnl cfg freq w lxm lx = some (lxm, lx) := by
  refine ⟨fun i => if i = 0 then 1000 else 1000.07, ?_, ?_⟩
  · refine (mem_degModes_sym rfl).2 (.inr (.inl ⟨(0, 1), degDoubles_iff.2 ⟨by omega, ?_⟩, rfl⟩))
    have ht : degTriples 2 (fun i => if i = 0 then (1000 : ℝ) else 1000.07) = [] := by
      have : incTriples 2 = [] := by decide
      simp [degTriples, this]
    rw [ht]
    refine ⟨?_, ?_, ?_, rfl, rfl⟩ <;> norm_num
  · intro cfg w lxm lx hl hn
    have hp : incPairs 2 = [(0, 1)] := by decide
    have hc : close (1000 : ℝ) 1000.07 (alignTol false) = false := by
      rw [← Bool.not_eq_true]
      unfold close; rw [lt_real, abs_real, alignTol_real]; norm_num
    unfold bdegnl
    rw [if_neg (by omega), hn]
    simp only [hp, List.foldlM_cons, List.foldlM_nil, alignStep, hl]
    simp only [show ((1 : Nat) = 0) = False by simp, if_true, if_false, hc, Bool.false_eq_true]
    rfl

end Verif
