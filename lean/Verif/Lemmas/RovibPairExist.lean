import Verif.Lemmas.RovibPair

/-!
# Existence of the energies of degenerate modes

Helpers for C110.
-/

namespace Verif.Osc

open Finset

variable {N : Nat}

/-- The equation `(H₀ - E) p = r` has a solution without parts in the level if `r` has none. -/
theorem solve_level (w : Nat → ℝ) (n : Fin N → ℤ) (r : Wave N)
    (hr : ∀ m : Fin N → Nat, level w (toInt m) = level w n → amp r (toInt m) = 0) :
    ∃ p, harmonic w p = level w n • p + r ∧ ∀ m, level w m = level w n → amp p m = 0 := by
  obtain ⟨c, rfl⟩ := (Finsupp.mem_span_range_iff_exists_finsupp).1 (oscState_span r)
  refine ⟨∑ m ∈ c.support, (c m / (level w (toInt m) - level w n)) • oscState m, amp_injective ?_, ?_⟩
  · funext m
    by_cases hneg : ∃ v, m v < 0
    · obtain ⟨v, hv⟩ := hneg
      rw [amp_neg _ hv, amp_neg _ hv]
    push Not at hneg
    have hm : m = toInt fun i => (m i).toNat := by
      funext i
      simp only [toInt]
      exact (Int.toNat_of_nonneg (hneg i)).symm
    have hr' := hr fun i => (m i).toNat
    rw [← hm] at hr'
    unfold Finsupp.sum at hr' ⊢
    rw [amp_harmonic, amp_add, amp_smul]
    simp only [amp_sum, Pi.add_apply, Pi.smul_apply, Finset.sum_apply, amp_smul, smul_eq_mul, amp_oscState, Finset.mul_sum,
      ← Finset.sum_add_distrib] at hr' ⊢
    by_cases hl : level w m = level w n
    · rw [Finset.sum_add_distrib, hr' hl, add_zero, hl]
    · refine Finset.sum_congr rfl fun x _ => ?_
      by_cases hx : m = toInt x
      · subst hx
        have := sub_ne_zero.2 hl
        rw [one_self]
        field_simp
        ring
      · simp [one, hx]
  · intro m hm
    rw [amp_sum, Finset.sum_apply]
    refine Finset.sum_eq_zero fun x _ => ?_
    rw [amp_smul, Pi.smul_apply, amp_oscState]
    by_cases hx : m = toInt x
    · rw [← hx, hm, sub_self, div_zero, zero_smul]
    · rw [one, if_neg hx, smul_zero]

theorem harmonic_state (w : Nat → ℝ) (n : Fin N → Nat) : harmonic w (oscState n) = level w (toInt n) • oscState n := by
  refine amp_injective (funext fun m => ?_)
  rw [amp_harmonic, amp_smul, amp_oscState, Pi.smul_apply, smul_eq_mul]
  by_cases h : m = toInt n
  · rw [h]
  · simp [one, h]

theorem harmonic_smul (w : Nat → ℝ) (c : ℝ) (p : Wave N) : harmonic w (c • p) = c • harmonic w p := by
  unfold harmonic
  simp only [coord_smul, slope_smul, ← smul_sub, smul_comm _ c, ← smul_sum]

theorem level_pair {w : Nat → ℝ} {k k2 : Fin N} (he : w k = w k2) : level w (unit k2) = level w (unit k) := by
  have := gap_level w (unit k) (unit k2)
  have e : gap (fun i : Fin N => w i) (unit k) (unit k2) = 0 := by
    have h1 := gap_add (fun i : Fin N => w i) (unit k) (unit k - unit k) 1 k2
    have h2 := gap_add (fun i : Fin N => w i) (unit k) (unit k) (-1) k
    rw [one_smul, show unit k - unit k + unit k2 = unit k2 by abel] at h1
    rw [neg_one_smul, ← sub_eq_add_neg, gap_self] at h2
    rw [h1, h2]
    push_cast
    linarith
  linarith

/-- What is needed of a molecule with a plane of symmetry: `o` is 1 for the vibrations that are odd with respect to it,
and the Coriolis constants in use couple vibrations whose parities differ by `t`. -/
structure Mirror (w : Nat → ℝ) (φ : Nat → Nat → Nat → ℝ) (c : Nat → ℝ) (ζ : Nat → Nat → Nat → ℝ) (g : Nat → ℝ)
    (R2 S2 : Wave N → Wave N) (o : Fin N → ZMod 2) (t : ZMod 2) (k k2 : Fin N) : Prop where
  hRes : NoRes fun i : Fin N => w i
  hPos : ∀ i : Fin N, 0 < w i
  hNe : k ≠ k2
  hEq : w k = w k2
  hAlone : ∀ m : Fin N → Nat, level w (toInt m) = level w (unit k) → toInt m = unit k ∨ toInt m = unit k2
  hOther : ∀ a : Fin N, w a = w k → a = k ∨ a = k2
  hAnti : ∀ a, ∀ k l : Fin N, ζ k l a = -ζ l k a
  hDiff : o k ≠ o k2
  hCubic : ∀ i j l : Fin N, φ i j l ≠ 0 → o i + o j + o l = 0
  hLinear : ∀ i : Fin N, c i ≠ 0 → o i = 0
  hAng : ∀ i j : Fin N, ∑ a ∈ range 3, g a * ζ i j a ≠ 0 → o i + o j = t
  secondL : ∀ n : Fin N → Nat, toInt n = unit k → amp (R2 (oscState n)) (unit k2) = 0
  secondR : ∀ n : Fin N → Nat, toInt n = unit k2 → amp (R2 (oscState n)) (unit k) = 0
  hImag : ∀ n : Fin N → Nat, (toInt n = unit k ∨ toInt n = unit k2) → ∀ x, x = k ∨ x = k2 →
    amp (S2 (oscState n)) (unit x) = 0
  realSmul : ∀ (r : ℝ) p, R2 (r • p) = r • R2 p
  imagSmul : ∀ (r : ℝ) p, S2 (r • p) = r • S2 p

section
variable {w : Nat → ℝ} {φ : Nat → Nat → Nat → ℝ} {c : Nat → ℝ} {ζ : Nat → Nat → Nat → ℝ} {g : Nat → ℝ}
  {R2 S2 : Wave N → Wave N} {o : Fin N → ZMod 2} {t : ZMod 2} {k k2 : Fin N}

/-- Matrix elements that vanish because of the parities. -/
theorem Mirror.zeros (M : Mirror w φ c ζ g R2 S2 o t k k2) :
    let W := fun i : Fin N => w i
    let Φ := fun i j k : Fin N => φ i j k
    let C := fun i : Fin N => c i
    let s := fun k l : Fin N => ∑ a ∈ range 3, g a * ζ k l a
    (∀ x y, cub Φ (one (unit x)) (unit y) = 0) ∧ (∀ x y, lin C (one (unit x)) (unit y) = 0) ∧
    (∀ x, ang W s (one (unit x)) (unit x) = 0) ∧
    (∀ x y, cub Φ (res W (unit k) (ang W s (one (unit x)))) (unit y) = 0) ∧
    (∀ x y, lin C (res W (unit k) (ang W s (one (unit x)))) (unit y) = 0) ∧
    (∀ x y, ang W s (res W (unit k) (cub Φ (one (unit x)))) (unit y) = 0) ∧
    (∀ x y, ang W s (res W (unit k) (lin C (one (unit x)))) (unit y) = 0) ∧
    (∀ x y, o x ≠ o y → cub Φ (res W (unit k) (cub Φ (one (unit x)))) (unit y) = 0 ∧
      cub Φ (res W (unit k) (lin C (one (unit x)))) (unit y) = 0 ∧
      lin C (res W (unit k) (cub Φ (one (unit x)))) (unit y) = 0 ∧
      lin C (res W (unit k) (lin C (one (unit x)))) (unit y) = 0 ∧
      ang W s (res W (unit k) (ang W s (one (unit x)))) (unit y) = 0) := by
  intro W Φ C s
  have sa : ∀ k l, s k l = -s l k := fun k l => by
    simp only [s, ← sum_neg_distrib]
    exact sum_congr rfl fun a _ => by rw [M.hAnti a k l]; ring
  have s0 : ∀ k, s k k = 0 := fun k => by have := sa k k; linarith
  have tc : ∀ i j k : Fin N, Φ i j k ≠ 0 → (fun _ => (1 : ZMod 2)) i + (fun _ => (1 : ZMod 2)) j + (fun _ => (1 : ZMod 2)) k =
    (1 : ZMod 2) := fun _ _ _ _ => show (1 + 1 + 1 : ZMod 2) = 1 by decide
  have tl : ∀ i : Fin N, C i ≠ 0 → (fun _ => (1 : ZMod 2)) i = (1 : ZMod 2) := fun _ _ => rfl
  have ta : ∀ i j : Fin N, s i j ≠ 0 → (fun _ => (1 : ZMod 2)) i + (fun _ => (1 : ZMod 2)) j = (0 : ZMod 2) :=
    fun _ _ _ => show (1 + 1 : ZMod 2) = 0 by decide
  have so : ∀ x : Fin N, Sup (fun _ => 1) 1 (one (unit x)) := fun x => by
    have := sup_one (fun _ => 1) (unit x)
    rwa [chi_total_unit] at this
  have odd1 : ∀ {f : (Fin N → ℤ) → ℝ} {t : ZMod 2} (x : Fin N), Sup (fun _ => 1) t f → t = 0 → f (unit x) = 0 := by
    intro f t x hf ht
    exact hf.zero (by rw [chi_total_unit, ht]; decide)
  have ou : ∀ x, chi o (unit x) = o x := fun x => by
    have := chi_add o 0 x
    rw [zero_add] at this
    rw [this]
    simp [chi]
  have oo : ∀ x : Fin N, Sup o (o x) (one (unit x)) := fun x => by
    have := sup_one o (unit x)
    rwa [ou] at this
  have par : ∀ {f : (Fin N → ℤ) → ℝ} {t : ZMod 2} (x y : Fin N), o x ≠ o y → Sup o t f → t = o x → f (unit y) = 0 := by
    intro f t x y hxy hf ht
    exact hf.zero (by rw [ou, ht]; exact Ne.symm hxy)
  refine ⟨fun x y => odd1 y ((so x).cub tc) (by decide), fun x y => odd1 y ((so x).lin tl) (by decide),
    fun x => ang_diag W s0 _, fun x y => odd1 y ((((so x).ang W ta).res W _).cub tc) (by decide),
    fun x y => odd1 y ((((so x).ang W ta).res W _).lin tl) (by decide),
    fun x y => odd1 y ((((so x).cub tc).res W _).ang W ta) (by decide),
    fun x y => odd1 y ((((so x).lin tl).res W _).ang W ta) (by decide), fun x y hxy => ⟨?_, ?_, ?_, ?_, ?_⟩⟩
  · exact par x y hxy ((((oo x).cub M.hCubic).res W _).cub M.hCubic) (by ring)
  · exact par x y hxy ((((oo x).lin M.hLinear).res W _).cub M.hCubic) (by ring)
  · exact par x y hxy ((((oo x).cub M.hCubic).res W _).lin M.hLinear) (by ring)
  · exact par x y hxy ((((oo x).lin M.hLinear).res W _).lin M.hLinear) (by ring)
  · exact par x y hxy ((((oo x).ang W M.hAng).res W _).ang W M.hAng) (by rw [add_assoc, CharTwo.add_self_eq_zero, add_zero])

/-- The energies of the rotating states exist if the two components have the same energy, those of a single component if
rotation does not couple it with the other one. -/
theorem Mirror.pair_exists (M : Mirror w φ c ζ g R2 S2 o t k k2) {n n' : Fin N → Nat} (hn : toInt n = unit k)
    (hn' : toInt n' = unit k2) {σ : ℝ} (hσ : σ ^ 2 = 1 ∨ ∑ a ∈ range 3, g a * ζ k k2 a = 0)
    (hpl : σ = 0 ∨ plain w φ c ζ g R2 n = plain w φ c ζ g R2 n') :
    ∃ E0 E1 E2, SecondOrderL (harmonic w) (fun p => cubic φ p + linear c p)
      (fun p => ∑ a ∈ range 3, g a • angular w ζ a p) R2 S2 (oscState n) (σ • oscState n') E0 E1 E2 := by
  obtain ⟨z1, z2, z0, z3, z4, z5, z6, z7⟩ := M.zeros
  set W := fun i : Fin N => w i with hW
  set Φ := fun i j k : Fin N => φ i j k with hΦ
  set C := fun i : Fin N => c i with hC
  set s := fun k l : Fin N => ∑ a ∈ range 3, g a * ζ k l a with hs
  have sa : ∀ k l, s k l = -s l k := fun k l => by
    simp only [hs, ← sum_neg_distrib]
    exact sum_congr rfl fun a _ => by rw [M.hAnti a k l]; ring
  have lev := level_pair M.hEq
  have gk : gap W (unit k) (unit k2) = 0 := by rw [gap_level, lev, sub_self]
  have gk' : gap W (unit k2) (unit k) = 0 := by rw [gap_level, lev, sub_self]
  have rese : ∀ f, res W (unit k2) f = res W (unit k) f := by
    intro f
    funext m
    rw [res_apply, res_apply, gap_level, gap_level, lev]
  have gape : ∀ m, gap W (unit k2) m = gap W (unit k) m := fun m => by rw [gap_level, gap_level, lev]
  have aI : amp (oscState n) = one (unit k) := by rw [amp_oscState, hn]
  have aI' : amp (oscState n') = one (unit k2) := by rw [amp_oscState, hn']
  have aS : amp (σ • oscState n') = σ • one (unit k2) := by rw [amp_smul, aI']
  have cpl : ang W s (one (unit k2)) (unit k) = s k k2 := ang_couple sa M.hNe (M.hPos k) M.hEq
  have cpl' : ang W s (one (unit k)) (unit k2) = s k2 k := ang_couple sa M.hNe.symm (M.hPos k2) M.hEq.symm
  have ne1 : one (unit k) (unit k2) = 0 := one_ne k (by simp [unit_at, M.hNe])
  have ne2 : one (unit k2) (unit k) = 0 := one_ne k2 (by simp [unit_at, M.hNe.symm])
  let ra := cub Φ (one (unit k)) + lin C (one (unit k)) + (-σ) • ang W s (one (unit k2))
  let rb := σ • (cub Φ (one (unit k2)) + lin C (one (unit k2))) + ang W s (one (unit k))
  let Pa := cubic φ (oscState n) + linear c (oscState n) - ∑ a ∈ range 3, g a • angular w ζ a (σ • oscState n')
  let Pb := cubic φ (σ • oscState n') + linear c (σ • oscState n') + ∑ a ∈ range 3, g a • angular w ζ a (oscState n)
  have wa : amp Pa = ra := by
    funext m
    rw [amp_sub, amp_add, amp_cubic, amp_linear, amp_angulars, aI, aS]
    simp only [ra, Pi.add_apply, Pi.sub_apply, Pi.smul_apply]
    rw [ang_smul, smul_eq_mul]
    ring
  have wb : amp Pb = rb := by
    funext m
    rw [amp_add, amp_add, amp_cubic, amp_linear, amp_angulars, aI, aS]
    simp only [rb, Pi.add_apply, Pi.smul_apply]
    rw [cub_smul, lin_smul, smul_eq_mul]
    ring
  let E1 := -(σ * s k k2)
  -- first order
  obtain ⟨a1, h1, v1⟩ := solve_level w (unit k) (E1 • oscState n - Pa) (by
    intro m hm
    rw [amp_sub, amp_smul, wa, aI]
    rcases M.hAlone m hm with e | e <;> rw [e] <;>
      simp only [ra, Pi.add_apply, Pi.sub_apply, Pi.smul_apply, smul_eq_mul, z0, z1, z2, cpl, one_self, ne1, E1] <;> ring)
  obtain ⟨b1, h1', v1'⟩ := solve_level w (unit k) (E1 • (σ • oscState n') - Pb) (by
    intro m hm
    rw [amp_sub, amp_smul, wb, aS]
    rcases M.hAlone m hm with e | e <;> rw [e] <;>
      simp only [rb, Pi.add_apply, Pi.sub_apply, Pi.smul_apply, smul_eq_mul, z0, z1, z2, cpl', one_self, ne2, E1]
    · ring
    · rw [sa k2 k]
      have : s k k2 * (σ ^ 2 - 1) = 0 := by
        rcases hσ with h | h
        · rw [h, sub_self, mul_zero]
        · rw [show s k k2 = 0 from h, zero_mul]
      linear_combination -this)
  have f1 : ∀ m, level w m * amp a1 m + ra m = level w (unit k) * amp a1 m + E1 * one (unit k) m := by
    intro m
    have := congrFun (congrArg amp h1) m
    rw [amp_add, amp_sub, wa, Pi.add_apply, Pi.sub_apply, amp_harmonic, amp_smul, amp_smul, aI] at this
    simp only [Pi.smul_apply, smul_eq_mul] at this
    linarith
  have f1' : ∀ m, level w m * amp b1 m + rb m = level w (unit k) * amp b1 m + E1 * (σ * one (unit k2) m) := by
    intro m
    have := congrFun (congrArg amp h1') m
    rw [amp_add, amp_sub, wb, Pi.add_apply, Pi.sub_apply, amp_harmonic, amp_smul, amp_smul, aS] at this
    simp only [Pi.smul_apply, smul_eq_mul] at this
    linarith
  have la : ∀ m, gap W (unit k) m ≠ 0 → amp a1 m = ((-1 : ℝ) • res W (unit k) ra) m := by
    intro m hm
    have hmk : m ≠ unit k := by rintro rfl; exact hm (gap_self _ _)
    have := f1 m
    rw [one, if_neg hmk, mul_zero, add_zero] at this
    rw [Pi.smul_apply, res_apply, gap_level, smul_eq_mul]
    rw [gap_level] at hm
    field_simp
    linarith
  have lb : ∀ m, gap W (unit k) m ≠ 0 → amp b1 m = ((-1 : ℝ) • res W (unit k) rb) m := by
    intro m hm
    have hmk : m ≠ unit k2 := by rintro rfl; exact hm gk
    have := f1' m
    rw [one, if_neg hmk, mul_zero, mul_zero, add_zero] at this
    rw [Pi.smul_apply, res_apply, gap_level, smul_eq_mul]
    rw [gap_level] at hm
    field_simp
    linarith
  have na : ∀ m v, m v < 0 → amp a1 m = ((-1 : ℝ) • res W (unit k) ra) m := neg_local a1 _ wa
  have nb : ∀ m v, m v < 0 → amp b1 m = ((-1 : ℝ) • res W (unit k) rb) m := neg_local b1 _ wb
  have dk : ∀ a, a ≠ k → W a = W k → a = k2 := fun a h1 h2 => (M.hOther a h2).resolve_left h1
  have dk2 : ∀ a, a ≠ k2 → W a = W k2 → a = k := fun a h1 h2 => (M.hOther a (h2.trans M.hEq.symm)).resolve_right h1
  obtain ⟨r1, r2, r3⟩ := half_local (w := W) (φ := Φ) (c := C) (s := s) M.hRes M.hPos M.hNe M.hEq dk sa gk la lb nb
  obtain ⟨i1, i2, i3⟩ := half_local (w := W) (φ := Φ) (c := C) (s := s) M.hRes M.hPos M.hNe M.hEq dk sa gk lb la na
  obtain ⟨p1, p2, p3⟩ := half_local (w := W) (φ := Φ) (c := C) (s := s) (k := k2) (k2 := k) (a := amp a1) (b := amp b1)
    (ra := ra) (rb := rb) M.hRes M.hPos M.hNe.symm M.hEq.symm dk2 sa gk'
    (fun m hm => by rw [rese]; exact la m (by rwa [gape] at hm)) (fun m hm => by rw [rese]; exact lb m (by rwa [gape] at hm))
    (fun m v hm => by rw [rese]; exact nb m v hm)
  obtain ⟨q1, q2, q3⟩ := half_local (w := W) (φ := Φ) (c := C) (s := s) (k := k2) (k2 := k) (a := amp b1) (b := amp a1)
    (ra := rb) (rb := ra) M.hRes M.hPos M.hNe.symm M.hEq.symm dk2 sa gk'
    (fun m hm => by rw [rese]; exact lb m (by rwa [gape] at hm)) (fun m hm => by rw [rese]; exact la m (by rwa [gape] at hm))
    (fun m v hm => by rw [rese]; exact na m v hm)
  rw [rese] at p1 p2 p3 q1 q2 q3
  have va := v1 (unit k) rfl
  have va' := v1 (unit k2) lev
  have vb := v1' (unit k) rfl
  have vb' := v1' (unit k2) lev
  have pl : ∀ (x : Fin N) (v : Fin N → Nat), toInt v = unit x → plain w φ c ζ g R2 v =
      -(cub Φ (res W (unit x) (cub Φ (one (unit x)))) (unit x) + cub Φ (res W (unit x) (lin C (one (unit x)))) (unit x) +
        lin C (res W (unit x) (cub Φ (one (unit x)))) (unit x) + lin C (res W (unit x) (lin C (one (unit x)))) (unit x)) +
      ang W s (res W (unit x) (ang W s (one (unit x)))) (unit x) + amp (R2 (oscState v)) (unit x) := by
    intro x v hv
    unfold plain
    rw [hv]
  have pn := pl k n hn
  have pn' := pl k2 n' hn'
  rw [rese, rese, rese] at pn'
  obtain ⟨y1, y2, y3, y4, y5⟩ := z7 k k2 M.hDiff
  obtain ⟨x1, x2, x3, x4, x5⟩ := z7 k2 k M.hDiff.symm
  let X := cubic φ a1 + linear c a1 - (∑ a ∈ range 3, g a • angular w ζ a b1) + (R2 (oscState n) - S2 (σ • oscState n'))
  let Y := cubic φ b1 + linear c b1 + (∑ a ∈ range 3, g a • angular w ζ a a1) + (R2 (σ • oscState n') + S2 (oscState n))
  have aX : ∀ m, amp X m = cub Φ (amp a1) m + lin C (amp a1) m - ang W s (amp b1) m + (amp (R2 (oscState n)) m -
      σ * amp (S2 (oscState n')) m) := by
    intro m
    simp only [X, M.imagSmul]
    rw [amp_add, amp_sub, amp_add, amp_cubic, amp_linear, amp_angulars, amp_sub, amp_smul]
    rfl
  have aY : ∀ m, amp Y m = cub Φ (amp b1) m + lin C (amp b1) m + ang W s (amp a1) m + (σ * amp (R2 (oscState n')) m +
      amp (S2 (oscState n)) m) := by
    intro m
    simp only [Y, M.realSmul]
    rw [amp_add, amp_add, amp_add, amp_cubic, amp_linear, amp_angulars, amp_add, amp_smul]
    rfl
  let E2 := plain w φ c ζ g R2 n
  obtain ⟨a2, h2, -⟩ := solve_level w (unit k) (E1 • a1 + E2 • oscState n - X) (by
    intro m hm
    rw [amp_sub, amp_add, amp_smul, amp_smul, aI]
    rcases M.hAlone m hm with e | e <;> rw [e] <;>
      simp only [Pi.add_apply, Pi.sub_apply, Pi.smul_apply, smul_eq_mul, aX, va, va', one_self, ne1, E2]
    · rw [r1, r2, r3, vb', pn, M.hImag n' (.inr hn') k (.inl rfl)]
      simp only [ra, rb, map_add, map_smul, cub_lins, lin_lins, ang_lins, cub_smul, lin_smul, ang_smul, z3, z4, z5, z6]
      ring
    · rw [p1, p2, p3, vb, M.secondL n hn, M.hImag n' (.inr hn') k2 (.inr rfl)]
      simp only [ra, rb, map_add, map_smul, cub_lins, lin_lins, ang_lins, cub_smul, lin_smul, ang_smul, z3, z4, z5, z6,
        y1, y2, y3, y4, y5]
      ring)
  obtain ⟨b2, h2', -⟩ := solve_level w (unit k) (E1 • b1 + E2 • (σ • oscState n') - Y) (by
    intro m hm
    rw [amp_sub, amp_add, amp_smul, amp_smul, aS]
    rcases M.hAlone m hm with e | e <;> rw [e] <;>
      simp only [Pi.add_apply, Pi.sub_apply, Pi.smul_apply, smul_eq_mul, aY, vb, vb', one_self, ne2, E2]
    · rw [i1, i2, i3, va', M.secondR n' hn', M.hImag n (.inl hn) k (.inl rfl)]
      simp only [ra, rb, map_add, map_smul, cub_lins, lin_lins, ang_lins, cub_smul, lin_smul, ang_smul, z3, z4, z5, z6,
        x1, x2, x3, x4, x5]
      ring
    · have e : plain w φ c ζ g R2 n * (σ * 1) = plain w φ c ζ g R2 n' * (σ * 1) := by
        rcases hpl with h | h
        · rw [h]; ring
        · rw [h]
      rw [q1, q2, q3, va, e, pn', M.hImag n (.inl hn) k2 (.inr rfl)]
      simp only [ra, rb, map_add, map_smul, cub_lins, lin_lins, ang_lins, cub_smul, lin_smul, ang_smul, z3, z4, z5, z6]
      ring)
  refine ⟨level w (unit k), E1, E2, a1, b1, a2, b2, ?_, ?_, ?_, ?_, ?_, ?_⟩
  · rw [harmonic_state, hn]
  · rw [harmonic_smul, harmonic_state, hn', lev, smul_comm]
  · rw [h1]; simp only [Pa]; abel
  · rw [h1']; simp only [Pb]; abel
  · rw [h2]; simp only [X]; abel
  · rw [h2']; simp only [Y]; abel

theorem Mirror.swap (M : Mirror w φ c ζ g R2 S2 o t k k2) : Mirror w φ c ζ g R2 S2 o t k2 k where
  hRes := M.hRes
  hPos := M.hPos
  hNe := M.hNe.symm
  hEq := M.hEq.symm
  hAlone := fun m hm => (M.hAlone m (by rw [hm, level_pair M.hEq])).symm
  hOther := fun a ha => (M.hOther a (ha.trans M.hEq.symm)).symm
  hAnti := M.hAnti
  hDiff := M.hDiff.symm
  hCubic := M.hCubic
  hLinear := M.hLinear
  hAng := M.hAng
  secondL := M.secondR
  secondR := M.secondL
  hImag := fun n hn x hx => M.hImag n hn.symm x hx.symm
  realSmul := M.realSmul
  imagSmul := M.imagSmul

theorem Mirror.comp_exists (M : Mirror w φ c ζ g R2 S2 o t k k2) {n : Fin N → Nat} (hn : toInt n = unit k)
    (hs : ∑ a ∈ range 3, g a * ζ k k2 a = 0) :
    ∃ E0 E1 E2, SecondOrderC (harmonic w) (fun p => cubic φ p + linear c p)
      (fun p => ∑ a ∈ range 3, g a • angular w ζ a p) R2 S2 (oscState n) E0 E1 E2 := by
  have hn' : toInt (fun i : Fin N => single k2 i) = unit k2 := single_unit k2
  obtain ⟨E0, E1, E2, a1, b1, a2, b2, e0, -, e1, e2, e3, e4⟩ := M.pair_exists hn hn' (σ := 0) (.inr hs) (.inl rfl)
  have r0 := M.realSmul 0 (0 : Wave N)
  have s0 := M.imagSmul 0 (0 : Wave N)
  have z : ∀ p : Wave N, cubic φ ((0 : ℝ) • p) + linear c ((0 : ℝ) • p) = 0 := by
    intro p
    refine amp_injective ?_
    rw [amp_add, amp_cubic, amp_linear, amp_smul]
    funext m
    rw [Pi.add_apply, cub_smul, lin_smul, zero_mul, zero_mul, add_zero, ← zero_smul ℝ (0 : Wave N), amp_smul, zero_smul,
      Pi.zero_apply]
  have z' : ∀ p : Wave N, ∑ a ∈ range 3, g a • angular w ζ a ((0 : ℝ) • p) = 0 := by
    intro p
    simp only [angular_smul]
    simp only [zero_smul, smul_zero, sum_const_zero]
  dsimp only at e1 e2 e3 e4
  rw [z', sub_zero] at e1
  rw [z, zero_add, zero_smul, smul_zero, add_zero] at e2
  rw [zero_smul, show S2 0 = 0 by simpa using s0, sub_zero] at e3
  rw [zero_smul, show R2 0 = 0 by simpa using r0, smul_zero, zero_add, add_zero] at e4
  exact ⟨E0, E1, E2, a1, b1, a2, b2, e0, e1, e2, e3, e4⟩

end

theorem Sup.qua {o : Fin N → ZMod 2} {c : ZMod 2} {f : (Fin N → ℤ) → ℝ} (h : Sup o c f) {ψ : Fin N → Fin N → Fin N → Fin N → ℝ}
    (hψ : ∀ i j k l, ψ i j k l ≠ 0 → o i + o j + o k + o l = 0) : Sup o c (qua ψ f) := by
  intro m hm
  by_contra hc
  apply hm
  rw [qua_at]
  have : ∀ i j k l, ψ i j k l * Osc.q i (Osc.q j (Osc.q k (Osc.q l f))) m = 0 := by
    intro i j k l
    by_cases h0 : ψ i j k l = 0
    · rw [h0, zero_mul]
    · rw [((((h.q l).q k).q j).q i).zero (m := m) (fun e => hc (by
        rw [e, show c + o l + o k + o j + o i = c + (o i + o j + o k + o l) by ring, hψ i j k l h0, add_zero])), mul_zero]
  simp only [this, sum_const_zero, mul_zero]

theorem Sup.quad {o : Fin N → ZMod 2} {c : ZMod 2} {f : (Fin N → ℤ) → ℝ} (h : Sup o c f) {a : Fin N → Fin N → ℝ}
    (ha : ∀ i j, a i j ≠ 0 → o i + o j = 0) : Sup o c (quad a f) := by
  intro m hm
  by_contra hc
  apply hm
  rw [quad_at]
  refine sum_eq_zero fun i _ => sum_eq_zero fun j _ => ?_
  by_cases h0 : a i j = 0
  · rw [h0, zero_mul]
  · rw [((h.q j).q i).zero (m := m) (fun e => hc (by
      rw [e, show c + o j + o i = c + (o i + o j) by ring, ha i j h0, add_zero])), mul_zero]

theorem chi_unit (o : Fin N → ZMod 2) (x : Fin N) : chi o (unit x) = o x := by
  have := chi_add o 0 x
  rw [zero_add] at this
  rw [this]
  simp [chi]

/-- A molecule with a plane of symmetry, rotating about one of its principal axes. -/
theorem mirror_of {κ : ℝ} {I : Nat → ℝ} {A : Nat → Nat → Nat → ℝ} {w : Nat → ℝ} {φ : Nat → Nat → Nat → ℝ}
    {ψ : Nat → Nat → Nat → Nat → ℝ} {ζ : Nat → Nat → Nat → ℝ} {J : Nat → ℝ} {o : Nat → ZMod 2} {t : ZMod 2} {ta : Nat → ZMod 2}
    {k k2 : Nat} (hk : k < N) (hk2 : k2 < N) (hp : ∀ i < N, 0 < w i) (hw : NoResonance N w) (hne : k ≠ k2) (he : w k = w k2)
    (hd : ∀ i < N, w i = w k → i = k ∨ i = k2)
    (hl : ∀ m : Fin N → Nat, level w (toInt m) = level w (unit (⟨k, hk⟩ : Fin N)) →
      toInt m = unit ⟨k, hk⟩ ∨ toInt m = unit ⟨k2, hk2⟩)
    (hz : ∀ a k l, k < N → l < N → ζ k l a = -ζ l k a) (ho : o k ≠ o k2)
    (hφ : ∀ i j l, φ i j l ≠ 0 → o i + o j + o l = 0) (hψ : ∀ i j l m, ψ i j l m ≠ 0 → o i + o j + o l + o m = 0)
    (hζ : ∀ i j a, a < 3 → ζ i j a ≠ 0 → o i + o j = ta a)
    (hc : ∀ i, ∑ a ∈ range 3, ∑ b ∈ range 3, recip1 κ I w A a b i * J a * J b ≠ 0 → o i = 0)
    (hq : ∀ i j, ∑ a ∈ range 3, ∑ b ∈ range 3, recip2 κ I w A a b i j * J a * J b ≠ 0 → o i + o j = 0)
    (hs : ∀ i j, ∑ a ∈ range 3, 2 * (κ / I a) * J a * ζ i j a ≠ 0 → o i + o j = t) :
    Mirror (N := N) w φ (fun k => ∑ a ∈ range 3, ∑ b ∈ range 3, recip1 κ I w A a b k * J a * J b) ζ
      (fun a => 2 * (κ / I a) * J a)
      (fun p => quartic ψ p + coriolis w ζ (fun a => κ / I a) p + (∑ a ∈ range 3, κ / I a * J a ^ 2) • p +
        quadratic (fun k l => ∑ a ∈ range 3, ∑ b ∈ range 3, recip2 κ I w A a b k l * J a * J b) p)
      (fun p => ∑ b ∈ range 3, linear (fun k => 2 * ∑ a ∈ range 3, recip1 κ I w A a b k * J a) (angular w ζ b p))
      (fun i => o i) t ⟨k, hk⟩ ⟨k2, hk2⟩ := by
  have R2 : ∀ (n : Fin N → Nat) (x y : Fin N), toInt n = unit x → o x ≠ o y →
      amp (quartic ψ (oscState n) + coriolis w ζ (fun a => κ / I a) (oscState n) +
        (∑ a ∈ range 3, κ / I a * J a ^ 2) • oscState n +
        quadratic (fun k l => ∑ a ∈ range 3, ∑ b ∈ range 3, recip2 κ I w A a b k l * J a * J b) (oscState n)) (unit y) = 0 := by
    intro n x y hn hxy
    have so := sup_one (fun i : Fin N => o i) (unit x)
    rw [chi_unit] at so
    have hy : chi (fun i : Fin N => o i) (unit y) ≠ o x := by rw [chi_unit]; exact hxy.symm
    rw [amp_add, amp_add, amp_add, amp_smul, amp_quartic, amp_quadratic, amp_oscState, hn]
    simp only [Pi.add_apply, Pi.smul_apply]
    rw [(so.qua fun i j k l => hψ i j k l).zero hy, (so.quad fun i j => hq i j).zero hy, so.zero hy, amp_coriolis,
      amp_oscState, hn]
    rw [sum_eq_zero fun a ha => by
      rw [((so.ang (fun i : Fin N => w i) fun i j => hζ i j a (mem_range.1 ha)).ang (fun i : Fin N => w i) fun i j =>
        hζ i j a (mem_range.1 ha)).zero (by rwa [add_assoc, CharTwo.add_self_eq_zero, add_zero]), mul_zero]]
    simp
  exact {
    hRes := hw.fin
    hPos := fun i => hp i i.2
    hNe := fun e => hne (congrArg Fin.val e)
    hEq := he
    hAlone := hl
    hOther := fun a ha => (hd a a.2 ha).imp (fun e => Fin.ext e) (fun e => Fin.ext e)
    hAnti := fun a k l => hz a k l k.2 l.2
    hDiff := ho
    hCubic := fun i j l => hφ i j l
    hLinear := fun i => hc i
    hAng := fun i j => hs i j
    secondL := fun n hn => R2 n _ _ hn ho
    secondR := fun n hn => R2 n _ _ hn ho.symm
    hImag := by
      intro n hn x _
      have so : Sup (fun _ => 1) 1 (one (toInt n)) := by
        have := sup_one (fun _ => 1) (toInt n)
        rcases hn with hn | hn <;> rw [hn, chi_total_unit] at this <;> rwa [hn]
      rw [amp_sum, Finset.sum_apply]
      refine sum_eq_zero fun b _ => ?_
      rw [amp_linear, amp_angular, amp_oscState]
      refine ((so.ang (fun i : Fin N => w i) (t := 0) fun _ _ _ => show (1 + 1 : ZMod 2) = 0 by decide).lin (t := 1)
        fun _ _ => rfl).zero ?_
      rw [chi_total_unit]
      decide
    realSmul := fun r p => by
      simp only [quartic_smul, coriolis_smul, quadratic_smul, smul_comm _ r, ← smul_add]
    imagSmul := fun r p => by
      have e : ∀ (c : Nat → ℝ) (p : Wave N), linear c (r • p) = r • linear c p := by
        intro c p
        unfold linear
        simp only [coord_smul, smul_comm _ r, ← smul_sum]
      simp only [angular_smul, e, ← smul_sum] }

end Verif.Osc
