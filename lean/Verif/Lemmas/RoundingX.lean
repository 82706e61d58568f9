import Verif.Lemmas.Rounding
import Mathlib.Tactic.NormNum

/-! Rounding errors of the anharmonic constants and fundamentals. -/

namespace Verif

variable {u κ : ℝ} {rnd : ℝ → ℝ}

section
variable (c : RoundCtx u κ rnd) {n : Nat} {R : Nat → Nat → Nat → Prop} {w : Vec (Fl rnd)}
  (hp : ∀ i < n, 0 < (w i).val) (ap : ApartBy κ n R fun i => (w i).val) {chk : Nat → Nat → Nat → Nat}
  (hc : ∀ i j k, chk i j k ≠ 0 ↔ R i j k)

section
include c hp

theorem acc_w (i : Nat) (hi : i < n) : Acc u κ 0 0 (w i).val (w i) (w i).val :=
  acc_exact c _ _ _ rfl (abs_of_pos (hp i hi))

theorem apartBy_ne {k l m : Nat} (hk : k < n) (hl : l < n) (hm : m < n)
    (h : (w k).val + (w l).val + (w m).val ≤ κ * |(w k).val + (w l).val - (w m).val|) :
    (w k).val + (w l).val - (w m).val ≠ 0 := by
  intro e
  rw [e, abs_zero, mul_zero] at h
  linarith [hp k hk, hp l hl, hp m hm]

theorem rel_d1 {k l m : Nat} (hk : k < n) (hl : l < n) (hm : m < n) :
    Rel u κ 2 0 ((w k).val + (w l).val + (w m).val) (w k + w l + w m) := by
  have a := hp k hk
  have b := hp l hl
  exact rel_add c (rel_add c (rel_exact _ _ rfl) (rel_exact _ _ rfl) a b (e := 1) (by omega) (by omega) le_rfl le_rfl)
    (rel_exact _ _ rfl) (by positivity) (hp m hm) (by omega) (by omega) le_rfl le_rfl

theorem rel_d3 {k l m : Nat} (hk : k < n) (hl : l < n) (hm : m < n)
    (h : (w k).val + (w l).val + (w m).val ≤ κ * |(w k).val + (w l).val - (w m).val|) :
    Rel u κ 0 1 ((w k).val + (w l).val - (w m).val) (w k + w l - w m) :=
  rel_of_acc c (e := 2) (acc_sub c (acc_add c (acc_w c hp k hk) (acc_w c hp l hl) (e := 1) (by omega) (by omega) le_rfl le_rfl)
    (acc_w c hp m hm) (by omega) (by omega) le_rfl le_rfl) (by omega) (apartBy_ne c hp hk hl hm h) h

theorem rel_d2 {k l m : Nat} (hk : k < n) (hl : l < n) (hm : m < n)
    (h : (w k).val + (w m).val + (w l).val ≤ κ * |(w k).val + (w m).val - (w l).val|) :
    Rel u κ 0 1 ((w k).val - (w l).val + (w m).val) (w k - w l + w m) := by
  have e : (w k).val - (w l).val + (w m).val = (w k).val + (w m).val - (w l).val := by ring
  refine rel_of_acc c (e := 2) (acc_add c (acc_sub c (acc_w c hp k hk) (acc_w c hp l hl) (e := 1) (by omega) (by omega)
    le_rfl le_rfl) (acc_w c hp m hm) (by omega) (by omega) le_rfl le_rfl) (by omega) ?_ ?_
  · rw [e]; exact apartBy_ne c hp hk hm hl h
  · rw [e]; linarith

theorem rel_d4 {k l m : Nat} (hk : k < n) (hl : l < n) (hm : m < n)
    (h : (w l).val + (w m).val + (w k).val ≤ κ * |(w l).val + (w m).val - (w k).val|) :
    Rel u κ 0 1 (-(w k).val + (w l).val + (w m).val) (-w k + w l + w m) := by
  have e : -(w k).val + (w l).val + (w m).val = (w l).val + (w m).val - (w k).val := by ring
  refine rel_of_acc c (e := 2) (acc_add c (acc_add c (acc_neg c (acc_w c hp k hk)) (acc_w c hp l hl) (e := 1) (by omega)
    (by omega) le_rfl le_rfl) (acc_w c hp m hm) (by omega) (by omega) le_rfl le_rfl) (by omega) ?_ ?_
  · rw [e]; exact apartBy_ne c hp hl hm hk h
  · rw [e]; linarith

theorem rel_2kl {k l : Nat} (hk : k < n) (hl : l < n) :
    Rel u κ 3 0 (Arith.lit 2.0 * (w k).val + (w l).val) (Arith.lit 2.0 * w k + w l) :=
  rel_add c (rel_mul c (rel_lit c 2.0) (rel_exact (w k) _ rfl) (e := 2) (by omega) le_rfl) (rel_exact _ _ rfl)
    (by rw [lit_real]; have := hp k hk; positivity) (hp l hl) (by omega) (by omega) le_rfl le_rfl

end

section
include c hp ap hc

theorem acc_xDiag (F4 : T4 (Fl rnd)) (F3 : T3 (Fl rnd)) {k : Nat} (hk : k < n) :
    Acc u κ (n + 11) 1
      (xDiag n (fun a b c d => (F4 a b c d).val) (fun i => (w i).val) (fun a b c => (F3 a b c).val) chk k)
      (xDiag n F4 w F3 chk k)
      (diagSize R n (fun i => (w i).val) (fun a b c => (F3 a b c).val) (fun a b c d => (F4 a b c d).val) k) := by
  unfold xDiag diagSize
  dsimp only
  have wk := hp k hk
  have z : Acc u κ 10 1 (Arith.lit 0.0 : ℝ) (Arith.lit 0.0 : Fl rnd) 0 :=
    acc_mono c (acc_lit c 0.0 0 (by norm_num)) (by omega) (by omega) le_rfl
  refine acc_mono c (acc_add c (e := n + 11) (d := 1) (e1 := 2) (e2 := 10 + n)
    (acc_div c (e := 2) (d := 0) (acc_exact c _ _ _ rfl rfl) (rel_lit c 16.0) (U := 16) (by norm_num [lit_real])
      (by omega) le_rfl)
    (acc_foldl (d := 1) (e := 10) n _ _ (fun l => (F3 k k l).val ^ 2 *
      @ite _ (R k k l) (Classical.propDecidable _) (1 / (8 * (w l).val) + 1 / (32 * (2 * (w k).val + (w l).val)))
        ((8 * (w k).val ^ 2 + 3 * (w l).val ^ 2) / (16 * (w l).val * |4 * (w k).val ^ 2 - (w l).val ^ 2|))) ?_ z)
    (by omega) (by omega) (by omega) le_rfl) le_rfl le_rfl (by rw [zero_add])
  intro l hl e' v a V he' hv
  have wl := hp l hl
  have hF : Acc u κ 1 0 (sq (F3 k k l).val) (sq (F3 k k l)) (|(F3 k k l).val| * |(F3 k k l).val|) :=
    acc_sq c (acc_exact c _ _ _ rfl rfl) (by omega) le_rfl
  rw [abs_mul_abs_self, ← pow_two] at hF
  have hone : Acc u κ 1 0 (one : ℝ) (one : Fl rnd) 1 := acc_lit c 1.0 1 (by norm_num)
  by_cases h : chk k k l ≠ 0
  · rw [if_pos h, if_pos h, if_pos ((hc _ _ _).1 h)]
    refine acc_sub c hv (acc_mono c (acc_mul c hF (acc_add c (e := 8) (d := 0)
      (acc_div c (e := 4) (d := 0) hone (rel_mul c (rel_lit c 8.0) (rel_exact (w l) _ rfl) (e := 2) (d := 0) (by omega) le_rfl)
        (U := 8 * (w l).val) (by rw [lit_real, abs_of_nonneg (by positivity)]; norm_num) (by omega) le_rfl)
      (acc_div c (e := 7) (d := 0) hone (rel_mul c (rel_lit c 32.0) (rel_2kl c hp hk hl) (e := 5) (d := 0) (by omega) le_rfl)
        (U := 32 * (2 * (w k).val + (w l).val)) (by rw [lit_real, lit_real, abs_of_nonneg (by positivity)]; norm_num)
        (by omega) le_rfl)
      (by omega) (by omega) le_rfl le_rfl) (e := 10) (d := 1) (by omega) (by omega)) he' le_rfl le_rfl)
      (by omega) (by omega) le_rfl le_rfl
  · rw [if_neg h, if_neg h, if_neg (fun h' => h ((hc _ _ _).2 h'))]
    have hA := ap k k l hk hk hl (fun h' => h ((hc _ _ _).2 h'))
    have hne := apartBy_ne c hp hk hk hl hA
    have qk : Acc u κ 1 0 (sq (w k).val) (sq (w k)) ((w k).val * (w k).val) := acc_sq c (acc_w c hp k hk) (by omega) le_rfl
    have ql : Acc u κ 1 0 (sq (w l).val) (sq (w l)) ((w l).val * (w l).val) := acc_sq c (acc_w c hp l hl) (by omega) le_rfl
    have e4 : (Arith.lit 4.0 : ℝ) * sq (w k).val - sq (w l).val =
        ((w k).val + (w k).val - (w l).val) * ((w k).val + (w k).val + (w l).val) := by
      rw [lit_real]; unfold sq; norm_num; ring
    have hd : Rel u κ 0 1 (Arith.lit 4.0 * sq (w k).val - sq (w l).val) (Arith.lit 4.0 * sq (w k) - sq (w l)) := by
      refine rel_of_acc c (e := 4) (acc_sub c (acc_mul c (e := 3) (d := 0) (acc_lit c 4.0 4 (by norm_num)) qk (by omega) le_rfl)
        ql (by omega) (by omega) le_rfl le_rfl) le_rfl ?_ ?_
      · rw [e4]; exact mul_ne_zero hne (by positivity)
      · rw [e4, abs_mul, abs_of_pos (show 0 < (w k).val + (w k).val + (w l).val by positivity)]
        have := mul_le_mul_of_nonneg_right hA (show 0 ≤ (w k).val + (w k).val + (w l).val by positivity)
        nlinarith [mul_pos wk wl]
    refine acc_sub c hv (acc_mono c (acc_div c (acc_mul c hF (acc_sub c (e := 4) (d := 0)
      (acc_mul c (acc_lit c 8.0 8 (by norm_num)) qk (e := 3) (d := 0) (by omega) le_rfl)
      (acc_mul c (acc_lit c 3.0 3 (by norm_num)) ql (e := 3) (d := 0) (by omega) le_rfl)
      (by omega) (by omega) le_rfl le_rfl) (e := 6) (d := 0) (by omega) le_rfl)
      (rel_mul c (rel_mul c (rel_lit c 16.0) (rel_exact (w l) _ rfl) (e := 2) (d := 0) (by omega) le_rfl) hd (e := 3) (d := 1)
        (by omega) le_rfl) (U := 16 * (w l).val * |4 * (w k).val ^ 2 - (w l).val ^ 2|) ?_ (e := 10) (d := 1) (by omega) le_rfl)
      he' le_rfl (le_of_eq (by ring))) (by omega) (by omega) le_rfl le_rfl
    rw [lit_real, lit_real, abs_mul, abs_mul, abs_of_pos wl]
    unfold sq
    norm_num [pow_two]

theorem acc_xFac (one3 : ∀ k l m, k < n → l < n → m < n → k ≠ l → OneOfThree R k l m) {k l m : Nat} (hk : k < n)
    (hl : l < n) (hm : m < n) (hkl : k ≠ l) :
    Acc u κ 12 3 (xFac (fun i => (w i).val) chk k l m) (xFac w chk k l m) (facSize R (fun i => (w i).val) k l m) := by
  have wk := hp k hk
  have wl := hp l hl
  have wm := hp m hm
  obtain ⟨o1, o2, o3⟩ := one3 k l m hk hl hm hkl
  have a2 : ¬ R k m l → Rel u κ 0 1 ((w k).val - (w l).val + (w m).val) (w k - w l + w m) :=
    fun h => rel_d2 c hp hk hl hm (ap k m l hk hm hl h)
  have a3 : ¬ R k l m → Rel u κ 0 1 ((w k).val + (w l).val - (w m).val) (w k + w l - w m) :=
    fun h => rel_d3 c hp hk hl hm (ap k l m hk hl hm h)
  have a4 : ¬ R l m k → Rel u κ 0 1 (-(w k).val + (w l).val + (w m).val) (-w k + w l + w m) :=
    fun h => rel_d4 c hp hk hl hm (ap l m k hl hm hk h)
  have a1 := rel_d1 c hp hk hl hm
  have hone : Acc u κ 1 0 (one : ℝ) (one : Fl rnd) 1 := acc_lit c 1.0 1 (by norm_num)
  have p1 : |(w k).val + (w l).val + (w m).val| = (w k).val + (w l).val + (w m).val := abs_of_pos (by positivity)
  have i1 := acc_div c hone a1 p1 (e := 4) (d := 0) (by omega) le_rfl
  have i2 := fun h => acc_div c hone (a2 h) rfl (e := 2) (d := 1) (by omega) le_rfl
  have i3 := fun h => acc_div c hone (a3 h) rfl (e := 2) (d := 1) (by omega) le_rfl
  have i4 := fun h => acc_div c hone (a4 h) rfl (e := 2) (d := 1) (by omega) le_rfl
  unfold xFac facSize dens
  dsimp only
  have k1 : (chk l m k ≠ 0 ∧ m = l) ↔ (R l m k ∧ m = l) := and_congr_left' (hc _ _ _)
  have k2 : (chk k m l ≠ 0 ∧ k = m) ↔ (R k m l ∧ k = m) := and_congr_left' (hc _ _ _)
  by_cases c1 : R l m k ∧ m = l
  · rw [if_pos (k1.2 c1), if_pos (k1.2 c1), if_pos (Or.inl c1)]
    obtain ⟨-, rfl⟩ := c1
    refine acc_mono c (acc_div c hone (rel_mul c (rel_lit c 8.0) (rel_2kl c hp hl hk) (e := 5) (d := 0) (by omega) le_rfl)
      (U := 8 * ((w k).val + (w m).val + (w m).val)) ?_ (e := 7) (d := 0) (by omega) le_rfl) (by omega) (by omega) le_rfl
    rw [lit_real, lit_real, abs_of_nonneg (by positivity)]; push_cast; norm_num only; ring
  rw [if_neg (mt k1.1 c1), if_neg (mt k1.1 c1)]
  by_cases c2 : R k m l ∧ k = m
  · rw [if_pos (k2.2 c2), if_pos (k2.2 c2), if_pos (Or.inr c2)]
    obtain ⟨-, rfl⟩ := c2
    refine acc_mono c (acc_div c hone (rel_mul c (rel_lit c 8.0) (rel_2kl c hp hk hl) (e := 5) (d := 0) (by omega) le_rfl)
      (U := 8 * ((w k).val + (w l).val + (w k).val)) ?_ (e := 7) (d := 0) (by omega) le_rfl) (by omega) (by omega) le_rfl
    rw [lit_real, lit_real, abs_of_nonneg (by positivity)]; push_cast; norm_num only; ring
  rw [if_neg (mt k2.1 c2), if_neg (mt k2.1 c2), if_neg (not_or.2 ⟨c1, c2⟩)]
  have l8 : |(Arith.lit 8.0 : ℝ)| = 8 := by rw [lit_real]; norm_num
  by_cases c3 : R k l m
  · have n2 : ¬ R k m l := fun h => o2 ⟨c3, h⟩
    have n4 : ¬ R l m k := fun h => o1 ⟨c3, h⟩
    rw [if_pos ((hc _ _ _).2 c3), if_pos ((hc _ _ _).2 c3), if_pos c3]
    exact acc_mono c (acc_div c (acc_mul c hone (acc_add c (acc_add c i1 (i2 n2) (e := 5) (d := 1) (by omega) (by omega)
      (by omega) (by omega)) (i4 n4) (e := 6) (d := 1) (by omega) (by omega) (by omega) (by omega)) (e := 8) (d := 1) (by omega)
      (by omega)) (rel_lit c 8.0) l8 (e := 10) (d := 1) (by omega) (by omega)) (by omega) (by omega) (le_of_eq (by ring))
  rw [if_neg (mt (hc _ _ _).1 c3), if_neg (mt (hc _ _ _).1 c3), if_neg c3]
  by_cases c4 : R l m k
  · have n2 : ¬ R k m l := fun h => o3 ⟨c4, h⟩
    rw [if_pos ((hc _ _ _).2 c4), if_pos ((hc _ _ _).2 c4), if_pos c4]
    exact acc_mono c (acc_div c (acc_mul c hone (acc_sub c (acc_add c i1 (i2 n2) (e := 5) (d := 1) (by omega) (by omega)
      (by omega) (by omega)) (i3 c3) (e := 6) (d := 1) (by omega) (by omega) (by omega) (by omega)) (e := 8) (d := 1) (by omega)
      (by omega)) (rel_lit c 8.0) l8 (e := 10) (d := 1) (by omega) (by omega)) (by omega) (by omega) (le_of_eq (by ring))
  rw [if_neg (mt (hc _ _ _).1 c4), if_neg (mt (hc _ _ _).1 c4), if_neg c4]
  by_cases c5 : R k m l
  · rw [if_pos ((hc _ _ _).2 c5), if_pos ((hc _ _ _).2 c5), if_pos c5]
    exact acc_mono c (acc_div c (acc_add c (acc_sub c i1 (i3 c3) (e := 5) (d := 1) (by omega) (by omega)
      (by omega) (by omega)) (i4 c4) (e := 6) (d := 1) (by omega) (by omega) (by omega) (by omega))
      (rel_lit c 8.0) l8 (e := 10) (d := 1) (by omega) (by omega)) (by omega) (by omega) (le_of_eq (by ring))
  rw [if_neg (mt (hc _ _ _).1 c5), if_neg (mt (hc _ _ _).1 c5), if_neg c5]
  have qk : Acc u κ 1 0 (sq (w k).val) (sq (w k)) ((w k).val * (w k).val) := acc_sq c (acc_w c hp k hk) (by omega) le_rfl
  have ql : Acc u κ 1 0 (sq (w l).val) (sq (w l)) ((w l).val * (w l).val) := acc_sq c (acc_w c hp l hl) (by omega) le_rfl
  have qm : Acc u κ 1 0 (sq (w m).val) (sq (w m)) ((w m).val * (w m).val) := acc_sq c (acc_w c hp m hm) (by omega) le_rfl
  refine acc_mono c (acc_div c (acc_mul c (acc_mul c (acc_lit c 0.5 (1 / 2) (by norm_num)) (acc_w c hp m hm) (e := 2) (d := 0)
      (by omega) le_rfl) (acc_sub c (acc_sub c qm qk (e := 2) (d := 0) (by omega) (by omega) le_rfl le_rfl) ql (e := 3) (d := 0)
      (by omega) (by omega) le_rfl le_rfl) (e := 6) (d := 0) (by omega) le_rfl)
    (rel_mul c (rel_mul c (rel_mul c (rel_neg a1) (a2 c5) (e := 3) (d := 1) (by omega) (by omega)) (a3 c3) (e := 4) (d := 2)
      (by omega) (by omega)) (a4 c4) (e := 5) (d := 3) (by omega) (by omega)) rfl (e := 12) (d := 3) (by omega) (by omega))
    le_rfl le_rfl (le_of_eq ?_)
  rw [abs_mul, abs_mul, abs_mul, abs_neg, p1]
  generalize |(w k).val - (w l).val + (w m).val| = x2
  generalize |(w k).val + (w l).val - (w m).val| = x3
  generalize |-(w k).val + (w l).val + (w m).val| = x4
  rw [show 1 / 2 * (w m).val * ((w m).val * (w m).val + (w k).val * (w k).val + (w l).val * (w l).val) =
    (w m).val * ((w m).val ^ 2 + (w k).val ^ 2 + (w l).val ^ 2) / 2 by ring, div_div]
  congr 1
  ring

theorem acc_xOff (one3 : ∀ k l m, k < n → l < n → m < n → k ≠ l → OneOfThree R k l m) (F4 : T4 (Fl rnd))
    (F3 zeta : T3 (Fl rnd)) (B : Vec (Fl rnd)) {k l : Nat} (hk : k < n) (hl : l < n) (hkl : k ≠ l) :
    Acc u κ (n + 16) 3
      (xOff n (fun a b c d => (F4 a b c d).val) (fun i => (w i).val) (fun a b c => (F3 a b c).val)
        (fun a b c => (zeta a b c).val) (fun a => (B a).val) chk k l)
      (xOff n F4 w F3 zeta B chk k l)
      (offSize R n (fun i => (w i).val) (fun a b c => (F3 a b c).val) (fun a b c d => (F4 a b c d).val)
        (fun a b c => (zeta a b c).val) (fun a => (B a).val) k l) := by
  have wk := hp k hk
  have wl := hp l hl
  unfold xOff offSize sumTo
  dsimp only
  have z1 : Acc u κ 4 0 (Arith.lit 0.0 : ℝ) (Arith.lit 0.0 : Fl rnd) 0 :=
    acc_mono c (acc_lit c 0.0 0 (by norm_num)) (by omega) (by omega) le_rfl
  have z2 : Acc u κ 14 3 (Arith.lit 0 : ℝ) (Arith.lit 0 : Fl rnd) 0 :=
    acc_mono c (acc_lit c 0 0 (by norm_num)) (by omega) (by omega) le_rfl
  have term : ∀ a, Acc u κ 2 0 ((B a).val * sq (zeta k l a).val) (B a * sq (zeta k l a))
      (|(B a).val| * (zeta k l a).val ^ 2) := fun a => by
    have := acc_mul c (acc_exact c (B a) _ _ rfl rfl) (acc_sq c (acc_exact c (zeta k l a) _ _ rfl rfl) (e := 1) (d := 0)
      (by omega) le_rfl) (e := 2) (d := 0) (by omega) le_rfl
    rwa [abs_mul_abs_self, ← pow_two] at this
  rw [Finset.sum_range_succ, Finset.sum_range_succ, Finset.sum_range_succ, Finset.sum_range_zero, zero_add]
  refine acc_add c (acc_add c (acc_add c
    (acc_div c (e := 2) (d := 0) (acc_exact c _ _ _ rfl rfl) (rel_lit c 4.0) (U := 4) (by norm_num [lit_real])
      (by omega) le_rfl)
    (acc_mono c (acc_foldl (d := 0) (e := 4) n _ _ (fun m => |(F3 k k m).val * (F3 l l m).val| / (4 * (w m).val)) ?_ z1)
      le_rfl le_rfl (le_of_eq (zero_add _)))
    (e := n + 14) (d := 3) (by omega) (by omega) (by omega) (by omega))
    (acc_mono c (acc_foldl (d := 3) (e := 14) n _ _ (fun m => (F3 k l m).val ^ 2 * facSize R (fun i => (w i).val) k l m) ?_ z2)
      le_rfl le_rfl (le_of_eq (zero_add _)))
    (e := n + 15) (d := 3) (by omega) (by omega) (by omega) le_rfl)
    (acc_mul c (acc_add c
      (acc_div c (acc_w c hp k hk) (rel_exact (w l) _ rfl) (abs_of_pos wl) (e := 1) (d := 0) (by omega) le_rfl)
      (acc_div c (acc_w c hp l hl) (rel_exact (w k) _ rfl) (abs_of_pos wk) (e := 1) (d := 0) (by omega) le_rfl)
      (e := 2) (d := 0) (by omega) (by omega) le_rfl le_rfl)
      (acc_add c (acc_add c (term 0) (term 1) (e := 3) (d := 0) (by omega) (by omega) le_rfl le_rfl) (term 2) (e := 4) (d := 0)
        (by omega) (by omega) le_rfl le_rfl) (e := 7) (d := 0) (by omega) le_rfl)
    (by omega) (by omega) le_rfl (by omega)
  · intro m hm e' v a V he' hv
    have wm := hp m hm
    have h := acc_div c (acc_mul c (acc_exact c (F3 k k m) _ _ rfl rfl) (acc_exact c (F3 l l m) _ _ rfl rfl) (e := 1) (d := 0)
      (by omega) le_rfl) (rel_mul c (rel_lit c 4.0) (rel_exact (w m) _ rfl) (e := 2) (d := 0) (by omega) le_rfl)
      (U := 4 * (w m).val) (by rw [lit_real, abs_of_nonneg (by positivity)]; norm_num) (e := 4) (d := 0) (by omega) le_rfl
    rw [← abs_mul] at h
    exact acc_sub c hv h (by omega) (by omega) le_rfl le_rfl
  · intro m hm e' v a V he' hv
    have h := acc_mul c (acc_neg c (acc_sq c (acc_exact c (F3 k l m) _ _ rfl rfl) (e := 1) (d := 0) (by omega) le_rfl))
      (acc_xFac c hp ap hc one3 hk hl hm hkl) (e := 14) (d := 3) (by omega) (by omega)
    rw [abs_mul_abs_self, ← pow_two] at h
    exact acc_add c hv h (by omega) (by omega) le_rfl le_rfl

theorem acc_fund (one3 : ∀ k l m, k < n → l < n → m < n → k ≠ l → OneOfThree R k l m) (F4 : T4 (Fl rnd))
    (F3 zeta : T3 (Fl rnd)) (B : Vec (Fl rnd)) {i : Nat} (hi : i < n) :
    ∃ v, (makeFunds w n (xcalcMat n F4 w F3 zeta B chk))[i]? = some v ∧ Acc u κ (2 * n + 18) 3
      ((w i).val + 2 * xcalcMat n (fun a b c d => (F4 a b c d).val) (fun i => (w i).val) (fun a b c => (F3 a b c).val)
        (fun a b c => (zeta a b c).val) (fun a => (B a).val) chk i i + 1 / 2 * ∑ j ∈ (Finset.range n).erase i,
        xcalcMat n (fun a b c d => (F4 a b c d).val) (fun i => (w i).val) (fun a b c => (F3 a b c).val)
        (fun a b c => (zeta a b c).val) (fun a => (B a).val) chk i j) v
      (fundSize R n (fun i => (w i).val) (fun a b c => (F3 a b c).val) (fun a b c d => (F4 a b c d).val)
        (fun a b c => (zeta a b c).val) (fun a => (B a).val) i) := by
  refine ⟨_, by simp only [makeFunds, List.getElem?_map, List.getElem?_range hi, Option.map_some]; rfl, ?_⟩
  have hD := acc_xDiag c hp ap hc F4 F3 hi
  have hO : ∀ j < n, j ≠ i → Acc u κ (n + 16) 3
      (xcalcMat n (fun a b c d => (F4 a b c d).val) (fun i => (w i).val) (fun a b c => (F3 a b c).val)
        (fun a b c => (zeta a b c).val) (fun a => (B a).val) chk i j)
      (xcalcMat n F4 w F3 zeta B chk i j)
      (offSize R n (fun i => (w i).val) (fun a b c => (F3 a b c).val) (fun a b c d => (F4 a b c d).val)
        (fun a b c => (zeta a b c).val) (fun a => (B a).val) (max i j) (min i j)) := by
    intro j hj hji
    rcases lt_or_gt_of_ne hji with h | h
    · rw [max_eq_left h.le, min_eq_right h.le, (xcalcMat_off _ _ _ _ _ _ _ i j h hi).1,
        (xcalcMat_off _ _ _ _ _ _ _ i j h hi).1]
      exact acc_xOff c hp ap hc one3 F4 F3 zeta B hi hj (Ne.symm hji)
    · rw [max_eq_right (le_of_lt h), min_eq_left (le_of_lt h), (xcalcMat_off _ _ _ _ _ _ _ j i h hj).2,
        (xcalcMat_off _ _ _ _ _ _ _ j i h hj).2]
      exact acc_xOff c hp ap hc one3 F4 F3 zeta B hj hi hji
  have hb := acc_add c (acc_w c hp i hi) (acc_mul c (acc_lit c 2.0 2 (by norm_num)) hD (e := n + 13) (d := 3) (by omega)
    (by omega)) (e := n + 18) (d := 3) (by omega) (by omega) (by omega) le_rfl
  have hf := acc_foldl (d := 3) (e := n + 18) n
    (fun val j => if j ≠ i then val + Arith.lit 0.5 * xcalcMat n (fun a b c d => (F4 a b c d).val) (fun i => (w i).val)
      (fun a b c => (F3 a b c).val) (fun a b c => (zeta a b c).val) (fun a => (B a).val) chk i j else val)
    (fun val j => if j ≠ i then val + Arith.lit 0.5 * xcalcMat n F4 w F3 zeta B chk i j else val)
    (fun j => if j ≠ i then offSize R n (fun i => (w i).val) (fun a b c => (F3 a b c).val)
      (fun a b c d => (F4 a b c d).val) (fun a b c => (zeta a b c).val) (fun a => (B a).val) (max i j) (min i j) / 2 else 0)
    (by
      intro j hj e' v a V he' hv
      by_cases h : j ≠ i
      · rw [if_pos h, if_pos h, if_pos h]
        exact acc_add c hv (acc_mono c (acc_mul c (acc_lit c 0.5 (1 / 2) (by norm_num)) (hO j hj h) (e := n + 18) (d := 3)
          (by omega) (by omega)) le_rfl le_rfl (le_of_eq (by ring))) (by omega) (by omega) le_rfl le_rfl
      · rw [if_neg h, if_neg h, if_neg h]
        exact acc_mono c hv (by omega) le_rfl (by rw [add_zero])) hb
  have e1 : (List.range n).foldl (fun val j => if j ≠ i then val + Arith.lit 0.5 * xcalcMat n
        (fun a b c d => (F4 a b c d).val) (fun i => (w i).val) (fun a b c => (F3 a b c).val) (fun a b c => (zeta a b c).val)
        (fun a => (B a).val) chk i j else val)
      ((w i).val + Arith.lit 2.0 * xDiag n (fun a b c d => (F4 a b c d).val) (fun i => (w i).val)
        (fun a b c => (F3 a b c).val) chk i) =
      (w i).val + 2 * xcalcMat n (fun a b c d => (F4 a b c d).val) (fun i => (w i).val) (fun a b c => (F3 a b c).val)
        (fun a b c => (zeta a b c).val) (fun a => (B a).val) chk i i + 1 / 2 * ∑ j ∈ (Finset.range n).erase i,
        xcalcMat n (fun a b c d => (F4 a b c d).val) (fun i => (w i).val) (fun a b c => (F3 a b c).val)
        (fun a b c => (zeta a b c).val) (fun a => (B a).val) chk i j := by
    have hs : ∀ (X : Nat → ℝ) (m : Nat) (a : ℝ), (List.range m).foldl
        (fun val j => if j ≠ i then val + Arith.lit 0.5 * X j else val) a =
        a + 1 / 2 * ∑ j ∈ (Finset.range m).erase i, X j := by
      intro X m a
      induction m with
      | zero => simp
      | succ m ih =>
        rw [List.range_succ, List.foldl_append, ih, Finset.range_add_one]
        simp only [List.foldl_cons, List.foldl_nil]
        by_cases h : m = i
        · subst h
          rw [if_neg (by simp), Finset.erase_insert (by simp), Finset.erase_eq_of_notMem (by simp)]
        · rw [if_pos h, Finset.erase_insert_of_ne h, Finset.sum_insert (by simp), lit_real]
          norm_num
          ring
    rw [hs, xcalcMat_diag _ _ _ _ _ _ _ i hi, lit_real]
    norm_num
  rw [e1] at hf
  rw [xcalcMat_diag n F4 w F3 zeta B chk i hi]
  exact acc_mono c hf (show n + 18 + n ≤ 2 * n + 18 by omega) le_rfl le_rfl

end
end

end Verif
