import Verif.Lemmas.TwoState

/-!
# Two resonant states: a fundamental and an overtone or combination

Helpers for C104.
-/

namespace Verif.Osc

open Finset

variable {N : Nat}

/-- The energy of the ground state: the resonant terms do not act on it. -/
theorem ground_unique {R : Nat → Nat → Nat → Prop} (hR : ResRel fun a b c : Fin N => R a b c)
    {w : Nat → ℝ} {φ : Nat → Nat → Nat → ℝ} {ψ : Nat → Nat → Nat → Nat → ℝ} {ζ : Nat → Nat → Nat → ℝ}
    {B : Nat → ℝ} {E0 E1 E2 : ℝ} (hp : ∀ i < N, 0 < w i) (hw : OnlyListed R N w)
    (h : VibEnergy w φ ψ ζ B (fun _ : Fin N => 0) E0 E1 E2) :
    E0 = level w (toInt fun _ : Fin N => 0) ∧ E1 = 0 ∧
      E2 = -secondR R w φ (toInt fun _ : Fin N => 0) + expect2 w ψ ζ B (toInt fun _ : Fin N => 0) := by
  classical
  obtain ⟨p1, p2, h0, h1, h2⟩ := h
  generalize hn : (fun _ : Fin N => 0) = n at *
  have a0 := congrFun (congrArg amp h0) (toInt n)
  rw [amp_harmonic, amp_smul, Pi.smul_apply, amp_oscState, one_self, smul_eq_mul, mul_one, mul_one] at a0
  have a1 : ∀ m, level w m * amp p1 m + cub (fun i j k : Fin N => φ i j k) (one (toInt n)) m =
      E0 * amp p1 m + E1 * one (toInt n) m := by
    intro m
    have := congrFun (congrArg amp h1) m
    rwa [amp_add, Pi.add_apply, amp_harmonic, amp_cubic, amp_oscState, amp_add, amp_smul, amp_smul, amp_oscState] at this
  have e1 : E1 = 0 := by
    have := a1 (toInt n)
    rw [cub_diag, one_self, a0] at this
    linarith
  have a2 := congrFun (congrArg amp h2) (toInt n)
  rw [amp_add, Pi.add_apply, amp_h2, amp_add, Pi.add_apply, amp_harmonic, amp_cubic, amp_add, amp_add, amp_smul,
    amp_smul, amp_smul, amp_oscState] at a2
  simp only [Pi.add_apply, Pi.smul_apply, one_self, smul_eq_mul] at a2
  rw [second_near R w φ (toInt n) (fun a b c x y z hx hy hz m hm => by
    have g := near_gap (R := fun a b c : Fin N => R a b c) (w := fun i : Fin N => w i) (fun i => hp i i.2)
      (fun i j k => hw i j k i.2 j.2 k.2) (toInt n) a b c x y z hx hy hz
    rw [← hm] at g
    unfold inv fracUnless
    by_cases hs : Shift (fun a b c : Fin N => R a b c) (m - toInt n)
    · rw [if_pos hs, mul_zero, neg_zero]
      have hneg : ¬ ∀ v, 0 ≤ m v := by
        intro hm
        refine not_shift hR (s := m - toInt n) (fun v => ?_) hs
        simp only [Pi.sub_apply, toInt, ← hn, Nat.cast_zero, sub_zero]
        exact hm v
      push Not at hneg
      obtain ⟨v, hv⟩ := hneg
      exact amp_neg _ hv
    · have g := g.resolve_left hs
      have := a1 m
      have hmn : m ≠ toInt n := by rintro rfl; exact g (gap_self _ _)
      rw [e1, zero_mul, add_zero, ← a0] at this
      rw [if_neg hs, gap_shift]
      rw [gap_level] at g ⊢
      field_simp
      linarith)] at a2
  refine ⟨a0.symm, e1, ?_⟩
  rw [e1, a0] at a2
  linarith

/-- The energies without the resonant terms exist. -/
theorem rest_exists {R : Nat → Nat → Nat → Prop} (hR : ResRel fun a b c : Fin N => R a b c) (w : Nat → ℝ)
    {φ : Nat → Nat → Nat → ℝ} (h3 : Symm3 N φ) (ψ : Nat → Nat → Nat → Nat → ℝ) (ζ : Nat → Nat → Nat → ℝ)
    (B : Nat → ℝ) (n : Fin N → Nat) (hn : ∀ m, m ≠ n → level w (toInt m) ≠ level w (toInt n)) :
    ∃ E0 E1 E2, Deperturbed R w φ ψ ζ B n E0 E1 E2 := by
  classical
  have h0 : harmonic w (oscState n) = level w (toInt n) • oscState n := by
    refine amp_injective (funext fun m => ?_)
    rw [amp_harmonic, amp_smul, amp_oscState, Pi.smul_apply, smul_eq_mul]
    by_cases h : m = toInt n
    · rw [h]
    · simp [one, h]
  obtain ⟨p1, h1⟩ := solve w n hn (-(cubic φ (oscState n) - resonant R φ (oscState n))) (by
    rw [← neg_one_smul ℝ, amp_smul, Pi.smul_apply, amp_rest hR h3, amp_oscState, rest_one, cub_diag, ite_self, smul_zero])
  obtain ⟨p2, h2⟩ := solve w n hn (amp ((cubic φ p1 - resonant R φ p1) + (quartic ψ (oscState n)
    + coriolis w ζ B (oscState n))) (toInt n)
    • oscState n - ((cubic φ p1 - resonant R φ p1) + (quartic ψ (oscState n) + coriolis w ζ B (oscState n)))) (by
    rw [amp_sub, amp_smul, Pi.sub_apply, Pi.smul_apply, amp_oscState, one_self, smul_eq_mul, mul_one, sub_self])
  refine ⟨_, 0, amp ((cubic φ p1 - resonant R φ p1) + (quartic ψ (oscState n) + coriolis w ζ B (oscState n))) (toInt n),
    p1, p2, h0, ?_, ?_⟩
  · rw [h1, zero_smul, add_zero]; dsimp only; abel
  · rw [h2, zero_smul, add_zero]; dsimp only; abel

/-- The equation `(H₀ - E) p = r` has a solution without a part along two states if all other states have other energies and
`r` has no part along the two. -/
theorem solve2 (w : Nat → ℝ) (a b : Fin N → Nat) (e : ℝ) (hn : ∀ m, m ≠ a → m ≠ b → level w (toInt m) ≠ e)
    (r : Wave N) (ha : amp r (toInt a) = 0) (hb : amp r (toInt b) = 0) :
    ∃ p ∈ others a b, harmonic w p = e • p + r := by
  obtain ⟨c, rfl⟩ := (Finsupp.mem_span_range_iff_exists_finsupp).1 (oscState_span r)
  have coef : ∀ x : Fin N → Nat, amp (c.sum fun i t => t • oscState i) (toInt x) = c x := by
    intro x
    unfold Finsupp.sum
    rw [amp_sum, Finset.sum_apply]
    simp only [amp_smul, Pi.smul_apply, amp_oscState, smul_eq_mul, one]
    rw [sum_eq_single x]
    · rw [if_pos rfl, mul_one]
    · intro y _ hy
      rw [if_neg fun e => hy (toInt_inj e).symm, mul_zero]
    · intro hx
      rw [if_pos rfl, mul_one, Finsupp.notMem_support_iff.1 hx]
  rw [coef] at ha hb
  refine ⟨∑ m ∈ c.support, (c m / (level w (toInt m) - e)) • oscState m, ?_, amp_injective ?_⟩
  · refine Submodule.sum_mem _ fun m hm => Submodule.smul_mem _ _ (Submodule.subset_span ⟨m, ?_, ?_, rfl⟩)
    · rintro rfl; exact (Finsupp.mem_support_iff.1 hm) ha
    · rintro rfl; exact (Finsupp.mem_support_iff.1 hm) hb
  · funext m
    unfold Finsupp.sum
    rw [amp_harmonic, amp_add, amp_smul]
    simp only [amp_sum, Pi.add_apply, Pi.smul_apply, Finset.sum_apply, amp_smul, smul_eq_mul, amp_oscState, Finset.mul_sum,
      ← Finset.sum_add_distrib]
    refine Finset.sum_congr rfl fun x hx => ?_
    by_cases hm : m = toInt x
    · subst hm
      have := sub_ne_zero.2 (hn x (by rintro rfl; exact (Finsupp.mem_support_iff.1 hx) ha)
        (by rintro rfl; exact (Finsupp.mem_support_iff.1 hx) hb))
      rw [one_self]
      field_simp
      ring
    · simp [one, hm]

/-- The effective Hamiltonian exists. -/
theorem eff_exists (w : Nat → ℝ) (φ : Nat → Nat → Nat → ℝ) (ψ : Nat → Nat → Nat → Nat → ℝ) (ζ : Nat → Nat → Nat → ℝ)
    (B : Nat → ℝ) (a b : Fin N → Nat) (hab : a ≠ b)
    (alone : ∀ m, m ≠ a → m ≠ b → level w (toInt m) ≠ level w (toInt a) ∧ level w (toInt m) ≠ level w (toInt b)) :
    ∃ h0 h1 h2, VibEffective w φ ψ ζ B a b h0 h1 h2 := by
  let s : Fin 2 → Fin N → Nat := ![a, b]
  have hs : ∀ j, (![oscState a, oscState b] : Fin 2 → Wave N) j = oscState (s j) := by
    intro j; fin_cases j <;> rfl
  have inj : ∀ i j, toInt (s i) = toInt (s j) → i = j := by
    intro i j e
    have := toInt_inj e
    fin_cases i <;> fin_cases j
    · rfl
    · exact absurd this hab
    · exact absurd this.symm hab
    · rfl
  have o : ∀ i j, one (toInt (s i)) (toInt (s j)) = if i = j then 1 else 0 := by
    intro i j
    by_cases e : i = j
    · rw [if_pos e, e]; exact one_self _
    · rw [if_neg e, one, if_neg fun e' => e (inj _ _ e').symm]
  have al : ∀ j m, m ≠ a → m ≠ b → level w (toInt m) ≠ level w (toInt (s j)) := by
    intro j m ha hb
    fin_cases j
    · exact (alone m ha hb).1
    · exact (alone m ha hb).2
  have H0 : ∀ j, harmonic w (oscState (s j)) = level w (toInt (s j)) • oscState (s j) := by
    intro j
    refine amp_injective (funext fun m => ?_)
    rw [amp_harmonic, amp_smul, amp_oscState, Pi.smul_apply, smul_eq_mul]
    by_cases h : m = toInt (s j)
    · rw [h]
    · simp [one, h]
  -- a remainder without parts along the two states
  have rem : ∀ r : Wave N, ∀ k, amp (∑ i, amp r (toInt (s i)) • oscState (s i) - r) (toInt (s k)) = 0 := by
    intro r k
    rw [amp_sub, amp_sum, Pi.sub_apply, Finset.sum_apply]
    simp only [amp_smul, Pi.smul_apply, amp_oscState, smul_eq_mul, o, mul_ite, mul_one, mul_zero, sum_ite_eq', mem_univ,
      if_true, sub_self]
  have ex : ∀ j, ∀ r : Wave N, ∃ p ∈ others a b, harmonic w p = level w (toInt (s j)) • p +
      (∑ i, amp r (toInt (s i)) • oscState (s i) - r) := fun j r =>
    solve2 w a b _ (al j) _ (rem r 0) (rem r 1)
  choose p1 k1 q1 using fun j => ex j (cubic φ (oscState (s j)))
  let r : Fin 2 → Wave N := fun j => cubic φ (p1 j) + (quartic ψ (oscState (s j)) + coriolis w ζ B (oscState (s j)))
    - ∑ i, amp (cubic φ (oscState (s j))) (toInt (s i)) • p1 i
  choose p2 k2 q2 using fun j => ex j (r j)
  refine ⟨fun i j => if i = j then level w (toInt (s j)) else 0,
    fun i j => amp (cubic φ (oscState (s j))) (toInt (s i)), fun i j => amp (r j) (toInt (s i)), p1, p2,
    fun j => ⟨k1 j, k2 j⟩, fun j => ?_⟩
  simp only [hs]
  have dg : ∀ p : Fin 2 → Wave N, ∑ i, (if i = j then level w (toInt (s j)) else 0) • p i = level w (toInt (s j)) • p j := by
    intro p
    simp [ite_smul]
  refine ⟨by rw [dg fun i => oscState (s i), H0], ?_, ?_⟩
  · rw [sum_add_distrib, dg, q1]
    abel
  · rw [sum_add_distrib, sum_add_distrib, dg, q2]
    simp only [r]
    abel

/-- The two states resonate with nothing else. -/
theorem isolated_shift {R : Nat → Nat → Nat → Prop} (hR : ResRel fun a b c : Fin N => R a b c) {i j k : Fin N}
    (hi : Isolated R i j k) {n m : Fin N → Nat} (hn : toInt n = unit k ∨ toInt n = unit i + unit j)
    (hs : Shift (fun a b c : Fin N => R a b c) (toInt m - toInt n)) : toInt m = unit k ∨ toInt m = unit i + unit j := by
  have nn : ∀ v, (0 : ℤ) ≤ toInt m v := fun v => by simp [toInt]
  have eq2 : ∀ c d : Fin N, ((c : Nat) = i ∧ (d : Nat) = j ∨ (c : Nat) = j ∧ (d : Nat) = i) →
      unit c + unit d = unit i + unit j := by
    rintro c d (⟨h1, h2⟩ | ⟨h1, h2⟩)
    · rw [Fin.ext h1, Fin.ext h2]
    · rw [Fin.ext h1, Fin.ext h2, add_comm]
  obtain ⟨c, d, e, hr, hs⟩ := hs
  obtain ⟨h1, h2, h3, h4⟩ := hi.2 c d e hr
  obtain ⟨o1, o2⟩ := hR.off c d e hr
  rcases hn with hn | hn <;> rw [hn] at hs <;> rcases hs with hs | hs
  · have hm : toInt m = unit k + (unit c + unit d - unit e) := by rw [← hs]; abel
    by_cases hek : e = k
    · subst hek
      right
      rw [hm, eq2 c d (h1 rfl)]; abel
    · exfalso
      have := nn e
      rw [hm] at this
      simp [unit_at, o1, o2, hek] at this
  · exfalso
    have hm : toInt m = unit k - (unit c + unit d - unit e) := by rw [sub_eq_add_neg, ← hs]; abel
    have hc := nn c
    have hd := nn d
    rw [hm] at hc hd
    simp only [Pi.sub_apply, Pi.add_apply, unit_at, o1.symm, o2.symm, if_true, if_false] at hc hd
    by_cases hck : c = k
    · by_cases hdk : d = k
      · subst hck
        subst hdk
        simp only [if_true] at hc
        omega
      · simp only [hdk, if_false] at hd
        split at hd <;> omega
    · simp only [hck, if_false] at hc
      split at hc <;> omega
  · exfalso
    have hm : toInt m = unit i + unit j + (unit c + unit d - unit e) := by rw [← hs]; abel
    have := nn e
    rw [hm] at this
    have h2' : e ≠ i := fun h => h2 (congrArg _ h)
    have h3' : e ≠ j := fun h => h3 (congrArg _ h)
    simp [unit_at, o1, o2, h2', h3'] at this
  · have hm : toInt m = unit i + unit j - (unit c + unit d - unit e) := by rw [sub_eq_add_neg, ← hs]; abel
    have hcd : (c = i ∧ d = j) ∨ (c = j ∧ d = i) := by
      have hc := nn c
      have hd := nn d
      rw [hm] at hc hd
      simp only [Pi.sub_apply, Pi.add_apply, unit_at, o1.symm, o2.symm, if_true, if_false] at hc hd
      by_cases c1 : c = i <;> by_cases c2 : c = j <;> by_cases d1 : d = i <;> by_cases d2 : d = j <;>
        by_cases cd : c = d <;> simp only [c1, c2, d1, d2, true_and, and_true, true_or, or_true, and_self, and_false, false_and, or_self] <;>
        first | (subst cd; simp_all; done) | (simp [c1, c2, d1, d2, cd, Ne.symm cd] at hc hd; try omega) | simp_all
    left
    have : (e : Nat) = k := h4 (by
      rcases hcd with ⟨rfl, rfl⟩ | ⟨rfl, rfl⟩
      · exact .inl ⟨rfl, rfl⟩
      · exact .inr ⟨rfl, rfl⟩)
    rw [hm, eq2 c d (by
      rcases hcd with ⟨rfl, rfl⟩ | ⟨rfl, rfl⟩
      · exact .inl ⟨rfl, rfl⟩
      · exact .inr ⟨rfl, rfl⟩), Fin.ext this]
    abel

section
variable {σ : Type} [Fintype σ] [DecidableEq σ]

/-- The one resonance between `i`, `j` and `k`. -/
def only (i j k a b c : σ) : Prop := c = k ∧ ((a = i ∧ b = j) ∨ (a = j ∧ b = i))

theorem only_rel {i j k : σ} (hi : k ≠ i) (hj : k ≠ j) : ResRel (only i j k) := by
  constructor
  · rintro a b c ⟨rfl, h⟩
    exact ⟨rfl, by tauto⟩
  · rintro a b c ⟨rfl, ⟨rfl, rfl⟩ | ⟨rfl, rfl⟩⟩
    · exact ⟨hi, hj⟩
    · exact ⟨hj, hi⟩

theorem only_sum {i j k : σ} {φ : σ → σ → σ → ℝ} (hφ : Sy3 φ) {f : (σ → ℤ) → ℝ} {n : σ → ℤ} {t : ℝ}
    (h1 : up i (up j (dn k f)) n + dn i (dn j (up k f)) n = t)
    (h2 : up j (up i (dn k f)) n + dn j (dn i (up k f)) n = t) :
    resA (only i j k) φ f n = rt ^ 3 / 2 * ((if i = j then 1 else 2) * (φ i j k * t)) := by
  classical
  unfold resA
  congr 1
  by_cases e : i = j
  · subst e
    rw [if_pos rfl, one_mul, sum_eq_single i, sum_eq_single i, sum_eq_single k]
    · rw [if_pos (by simp [only]), h1]
    · intro c _ hc; rw [if_neg (by simp [only, hc])]
    · simp
    · intro c _ hc; exact sum_eq_zero fun x _ => by rw [if_neg (by simp [only, hc])]
    · simp
    · intro c _ hc; exact sum_eq_zero fun x _ => sum_eq_zero fun y _ => by rw [if_neg (by simp [only, hc])]
    · simp
  · rw [if_neg e]
    have inner : ∀ a b, (∑ c, if only i j k a b c then
        φ a b c * (up a (up b (dn c f)) n + dn a (dn b (up c f)) n) else 0) =
        (if a = i then if b = j then φ i j k * t else 0 else 0) + if a = j then if b = i then φ i j k * t else 0 else 0 := by
      intro a b
      rw [sum_eq_single k (fun c _ hc => by rw [if_neg (by simp [only, hc])]) (by simp)]
      by_cases a1 : a = i
      · subst a1
        by_cases b1 : b = j
        · subst b1; simp [only, e, h1]
        · simp [only, b1, e]
      · by_cases a2 : a = j
        · subst a2
          by_cases b1 : b = i
          · subst b1; simp [only, a1, h2, (hφ b a k).1]
          · simp [only, b1, a1]
        · simp [only, a1, a2]
    simp only [inner, sum_add_distrib, sum_ite_eq', mem_univ, if_true]
    have o : ∀ x y : σ, (∑ a, ∑ b, if a = x then if b = y then φ i j k * t else 0 else 0) = φ i j k * t := by
      intro x y
      rw [sum_eq_single x, sum_eq_single y] <;> simp +contextual
    rw [o, o]
    ring

/-- The product of the matrix elements between the two states. -/
theorem coupling_sq {i j k : σ} (hi : k ≠ i) (hj : k ≠ j) {φ : σ → σ → σ → ℝ} (hφ : Sy3 φ) :
    cub φ (one (unit i + unit j)) (unit k) * cub φ (one (unit k)) (unit i + unit j) =
      (if i = j then φ i i k / 4 else φ i j k / (2 * Real.sqrt 2)) ^ 2 := by
  have hR := only_rel hi hj
  have s1 : Shift (only i j k) (unit i + unit j - unit k) := ⟨i, j, k, ⟨rfl, .inl ⟨rfl, rfl⟩⟩, .inl rfl⟩
  have m0 : ∀ n m : σ → ℤ, Shift (only i j k) (n - m) → mask (only i j k) m (one n) = 0 := by
    intro n m h
    funext x
    unfold mask
    split
    · rfl
    · rename_i hx
      have : x ≠ n := by rintro rfl; exact hx h
      simp [one, this]
  have c1 : cub φ (one (unit i + unit j)) (unit k) = resA (only i j k) φ (one (unit i + unit j)) (unit k) := by
    have := cub_mask hR hφ (one (unit i + unit j)) (unit k)
    rw [m0 _ _ s1, cub_zero] at this
    linarith
  have c2 : cub φ (one (unit k)) (unit i + unit j) = resA (only i j k) φ (one (unit k)) (unit i + unit j) := by
    have := cub_mask hR hφ (one (unit k)) (unit i + unit j)
    rw [m0 _ _ ((shift_neg _).1 (by rw [neg_sub]; exact s1)), cub_zero] at this
    linarith
  have two : ∀ x y : σ, x ≠ k → y ≠ k → unit k - unit x - unit y + unit k ≠ unit x + unit y := by
    intro x y hx hy h
    have := congrFun h k
    simp [unit_at, hx.symm, hy.symm] at this
  have two' : ∀ x y : σ, x ≠ k → y ≠ k → unit x + unit y + unit x + unit y - unit k ≠ unit k := by
    intro x y hx hy h
    have := congrFun h k
    simp [unit_at, hx.symm, hy.symm] at this
  have v1 : ∀ x y : σ, x ≠ k → y ≠ k → up x (up y (dn k (one (unit x + unit y)))) (unit k) +
      dn x (dn y (up k (one (unit x + unit y)))) (unit k) = if x = y then 2 else 1 := by
    intro x y hx hy
    have e1 : one (unit x + unit y) (unit k - unit x - unit y + unit k) = 0 := if_neg (two x y hx hy)
    have e2 : one (unit x + unit y) (unit k + unit x + unit y - unit k) = 1 := if_pos (by abel)
    simp only [up, dn, e1, e2, Pi.add_apply, unit_at, hx, hy, if_false]
    by_cases h : x = y
    · subst h; norm_num
    · simp [h, Ne.symm h]
  have v2 : ∀ x y : σ, x ≠ k → y ≠ k → up x (up y (dn k (one (unit k)))) (unit x + unit y) +
      dn x (dn y (up k (one (unit k)))) (unit x + unit y) = 1 := by
    intro x y hx hy
    have e1 : one (unit k) (unit x + unit y - unit x - unit y + unit k) = 1 := if_pos (by abel)
    have e2 : one (unit k) (unit x + unit y + unit x + unit y - unit k) = 0 := if_neg (two' x y hx hy)
    simp only [up, dn, e1, e2, Pi.sub_apply, Pi.add_apply, unit_at, hx.symm, hy.symm, if_false]
    norm_num
  rw [c1, c2, only_sum hφ (v1 i j hi.symm hj.symm) (by
      rw [add_comm (unit i), v1 j i hj.symm hi.symm]
      exact if_congr eq_comm rfl rfl),
    only_sum hφ (v2 i j hi.symm hj.symm) (by rw [add_comm (unit i), v2 j i hj.symm hi.symm])]
  have r6 : rt ^ 3 * rt ^ 3 = 1 / 8 := by
    have := rt_sq
    have e : rt ^ 3 * rt ^ 3 = (rt * rt) ^ 3 := by ring
    rw [e, this]; norm_num
  split
  · rename_i e
    subst e
    linear_combination (φ i i k ^ 2 / 2) * r6
  · have r2 : Real.sqrt 2 * Real.sqrt 2 = 2 := Real.mul_self_sqrt (by norm_num)
    have e8 : (φ i j k / (2 * Real.sqrt 2)) ^ 2 = φ i j k ^ 2 / 8 := by
      rw [div_pow, mul_pow, pow_two (Real.sqrt 2), r2]; ring
    rw [e8]
    linear_combination (φ i j k ^ 2) * r6

end

end Verif.Osc
