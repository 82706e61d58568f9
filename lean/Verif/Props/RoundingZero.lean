import Verif.Spec.RoundingZero
import Verif.Props.Rounding
import Verif.Props.RoundingEnergy
import Verif.Props.Perturb

/-!
# C117: rounding errors of the zero-point constant
-/

namespace Verif

variable {u κ : ℝ} {rnd : ℝ → ℝ}

section
variable (c : RoundCtx u κ rnd)
include c

theorem acc_addList {β : Type} {e d : Nat} (he : 1 ≤ e) (l : List β) (f T : β → ℝ) (g : β → Fl rnd)
    (h : ∀ b ∈ l, Acc u κ e d (f b) (g b) (T b)) {e' : Nat} (hl : e + l.length ≤ e') :
    Acc u κ e' d (sumL l f) (sumL l g) (l.map T).sum := by
  refine acc_mono c ?_ hl le_rfl le_rfl
  clear hl
  induction l using List.reverseRecOn with
  | nil => exact acc_mono c (acc_lit c 0 0 (by simp)) (by simpa using he) (by omega) (le_of_eq (by simp))
  | append_singleton l b ih =>
    unfold sumL
    rw [List.foldl_append, List.foldl_append, List.map_append, List.sum_append]
    refine acc_mono c (acc_add c (ih fun b hb => h b (by simp [hb])) (h b (by simp)) ?_ ?_ le_rfl le_rfl) le_rfl le_rfl (le_of_eq (by simp))
    · simp
    · simp only [List.length_append, List.length_cons]; omega

theorem acc_subList {β : Type} {e d : Nat} (he : 1 ≤ e) (l : List β) (f T : β → ℝ) (g : β → Fl rnd)
    (h : ∀ b ∈ l, Acc u κ e d (f b) (g b) (T b)) {e' : Nat} (hl : e + l.length ≤ e') :
    Acc u κ e' d (l.foldl (fun v b => v - f b) (Arith.lit 0.0)) (l.foldl (fun v b => v - g b) (Arith.lit 0.0)) (l.map T).sum := by
  refine acc_mono c ?_ hl le_rfl le_rfl
  clear hl
  induction l using List.reverseRecOn with
  | nil => exact acc_mono c (acc_lit c 0.0 0 (by norm_num)) (by simpa using he) (by omega) (le_of_eq (by simp))
  | append_singleton l b ih =>
    rw [List.foldl_append, List.foldl_append, List.map_append, List.sum_append]
    refine acc_mono c (acc_sub c (ih fun b hb => h b (by simp [hb])) (h b (by simp)) ?_ ?_ le_rfl le_rfl) le_rfl le_rfl (le_of_eq (by simp))
    · simp
    · simp only [List.length_append, List.length_cons]; omega

end

theorem length_flatMap_le {β γ : Type} (l : List β) (f : β → List γ) (M : Nat) (h : ∀ b ∈ l, (f b).length ≤ M) :
    (l.flatMap f).length ≤ l.length * M := by
  induction l with
  | nil => simp
  | cons b l ih =>
    rw [List.flatMap_cons, List.length_append, List.length_cons, Nat.add_mul, one_mul, add_comm]
    exact Nat.add_le_add (ih fun b hb => h b (by simp [hb])) (h b (by simp))

section
variable (c : RoundCtx u κ rnd) {n : Nat} {w : Vec (Fl rnd)} (hp : ∀ i < n, 0 < (w i).val)
include c hp

/-- The term of two modes that are not in resonance. -/
theorem acc_e0kkl (F3 : T3 (Fl rnd)) (t : Ifrm1) {k l : Nat} (hk : k < n) (hl : l < n) (ht : t k ≠ some l)
    (ap : (w k).val + (w k).val + (w l).val ≤ κ * |(w k).val + (w k).val - (w l).val|) :
    Acc u κ 7 1 (e0kkl (fun i => (w i).val) (fun a b c => (F3 a b c).val) t k l) (e0kkl w F3 t k l)
      (3 * (F3 k k l).val ^ 2 * (w l).val / (64 * |4 * (w k).val ^ 2 - (w l).val ^ 2|)) := by
  have wk := hp k hk
  have wl := hp l hl
  have hne := apartBy_ne c hp hk hk hl ap
  have qk : Acc u κ 1 0 (sq (w k).val) (sq (w k)) ((w k).val * (w k).val) := acc_sq c (acc_w c hp k hk) (by omega) le_rfl
  have ql : Acc u κ 1 0 (sq (w l).val) (sq (w l)) ((w l).val * (w l).val) := acc_sq c (acc_w c hp l hl) (by omega) le_rfl
  have hF : Acc u κ 1 0 (sq (F3 k k l).val) (sq (F3 k k l)) (|(F3 k k l).val| * |(F3 k k l).val|) :=
    acc_sq c (acc_exact c _ _ _ rfl rfl) (by omega) le_rfl
  rw [abs_mul_abs_self, ← pow_two] at hF
  have e4 : (Arith.lit 4.0 : ℝ) * sq (w k).val - sq (w l).val =
      ((w k).val + (w k).val - (w l).val) * ((w k).val + (w k).val + (w l).val) := by
    rw [lit_real]; unfold sq; norm_num; ring
  have hd : Rel u κ 0 1 (Arith.lit 4.0 * sq (w k).val - sq (w l).val) (Arith.lit 4.0 * sq (w k) - sq (w l)) := by
    refine rel_of_acc c (e := 4) (acc_sub c (acc_mul c (e := 3) (d := 0) (acc_lit c 4.0 4 (by norm_num)) qk (by omega) le_rfl)
      ql (by omega) (by omega) le_rfl le_rfl) le_rfl ?_ ?_
    · rw [e4]; exact mul_ne_zero hne (by positivity)
    · rw [e4, abs_mul, abs_of_pos (show 0 < (w k).val + (w k).val + (w l).val by positivity)]
      have := mul_le_mul_of_nonneg_right ap (show 0 ≤ (w k).val + (w k).val + (w l).val by positivity)
      nlinarith [mul_pos wk wl]
  unfold e0kkl
  dsimp only
  rw [if_neg ht, if_neg ht]
  refine acc_div c (acc_mul c (e := 4) (d := 0) (acc_mul c (e := 3) (d := 0) (acc_lit c 3.0 3 (by norm_num)) hF (by omega) le_rfl)
    (acc_w c hp l hl) (by omega) le_rfl) (rel_mul c (rel_lit c 64.0) hd (e := 2) (d := 1) (by omega) le_rfl) ?_ (by omega) le_rfl
  rw [lit_real, lit_real, abs_mul]
  unfold sq
  norm_num [pow_two]

/-- The term of three modes that are not in resonance. -/
theorem acc_e0klm (F3 : T3 (Fl rnd)) (chk : Nat → Nat → Nat → Nat) {k l m : Nat} (hk : k < n) (hl : l < n) (hm : m < n)
    (h1 : chk k l m = 0) (h2 : chk l m k = 0) (h3 : chk k m l = 0)
    (a2 : (w k).val + (w m).val + (w l).val ≤ κ * |(w k).val + (w m).val - (w l).val|)
    (a3 : (w k).val + (w l).val + (w m).val ≤ κ * |(w k).val + (w l).val - (w m).val|)
    (a4 : (w l).val + (w m).val + (w k).val ≤ κ * |(w l).val + (w m).val - (w k).val|) :
    Acc u κ 12 3 (e0klm (fun i => (w i).val) (fun a b c => (F3 a b c).val) chk k l m) (e0klm w F3 chk k l m)
      ((F3 k l m).val ^ 2 * ((w k).val * (w l).val * (w m).val) / (4 * ((w k).val + (w l).val + (w m).val) *
        |(w k).val - (w l).val + (w m).val| * |(w k).val + (w l).val - (w m).val| * |(w k).val - (w l).val - (w m).val|)) := by
  have wk := hp k hk
  have wl := hp l hl
  have wm := hp m hm
  have hF : Acc u κ 1 0 (sq (F3 k l m).val) (sq (F3 k l m)) (|(F3 k l m).val| * |(F3 k l m).val|) :=
    acc_sq c (acc_exact c _ _ _ rfl rfl) (by omega) le_rfl
  rw [abs_mul_abs_self, ← pow_two] at hF
  have r4 : Rel u κ 0 1 ((w k).val - (w l).val - (w m).val) (w k - w l - w m) := by
    have e : (w k).val - (w l).val - (w m).val = -((w l).val + (w m).val - (w k).val) := by ring
    refine rel_of_acc c (e := 2) (acc_sub c (acc_sub c (acc_w c hp k hk) (acc_w c hp l hl) (e := 1) (by omega) (by omega)
      le_rfl le_rfl) (acc_w c hp m hm) (by omega) (by omega) le_rfl le_rfl) (by omega) ?_ ?_
    · rw [e]; exact neg_ne_zero.2 (apartBy_ne c hp hl hm hk a4)
    · rw [e, abs_neg]; linarith
  unfold e0klm
  dsimp only
  rw [if_neg (not_not.2 h1), if_neg (not_not.2 h2), if_neg (not_not.2 h3), if_neg (not_not.2 h1), if_neg (not_not.2 h2),
    if_neg (not_not.2 h3)]
  refine acc_div c (acc_mul c (e := 4) (d := 0) hF (acc_mul c (e := 2) (d := 0) (acc_mul c (e := 1) (d := 0) (acc_w c hp k hk)
    (acc_w c hp l hl) (by omega) le_rfl) (acc_w c hp m hm) (by omega) le_rfl) (by omega) le_rfl)
    (rel_mul c (rel_mul c (rel_mul c (rel_mul c (rel_lit c 4.0) (rel_d1 c hp hk hl hm) (e := 4) (d := 0) (by omega) le_rfl)
      (rel_d2 c hp hk hl hm a2) (e := 5) (d := 1) (by omega) le_rfl) (rel_d3 c hp hk hl hm a3) (e := 6) (d := 2) (by omega) le_rfl)
      r4 (e := 7) (d := 3) (by omega) le_rfl) ?_ (by omega) le_rfl
  rw [abs_mul, abs_mul, abs_mul, abs_mul, lit_real, abs_of_pos (show 0 < (w k).val + (w l).val + (w m).val by positivity)]
  norm_num

/-- The whole constant. -/
theorem acc_makeE0 (F4 : T4 (Fl rnd)) (F3 : T3 (Fl rnd)) (modes : List Mode) (t : Ifrm1) (chk : Nat → Nat → Nat → Nat)
    (hm : ∀ a ∈ nonDeg modes, a < n) (ht : ∀ a ∈ nonDeg modes, ∀ b ∈ nonDeg modes, t a ≠ some b)
    (hc : ∀ a ∈ nonDeg modes, ∀ b ∈ nonDeg modes, ∀ c ∈ nonDeg modes, chk a b c = 0)
    (ap : ApartBy κ n (fun a b c => ¬ (a ∈ nonDeg modes ∧ b ∈ nonDeg modes ∧ c ∈ nonDeg modes)) fun i => (w i).val) :
    Acc u κ ((nonDeg modes).length ^ 3 + 13) 3
      (makeE0 modes (fun a b c d => (F4 a b c d).val) (fun a b c => (F3 a b c).val) (fun i => (w i).val) t chk)
      (makeE0 modes F4 F3 w t chk)
      (e0Size (nonDeg modes) (fun i => (w i).val) (fun a b c => (F3 a b c).val) fun a b c d => (F4 a b c d).val) := by
  have hpart : (Mode.partition modes).1 = nonDeg modes := by rw [partition_eq]; rfl
  have ap' : ∀ a ∈ nonDeg modes, ∀ b ∈ nonDeg modes, ∀ d ∈ nonDeg modes,
      (w a).val + (w b).val + (w d).val ≤ κ * |(w a).val + (w b).val - (w d).val| :=
    fun a ha b hb d hd => ap a b d (hm a ha) (hm b hb) (hm d hd) (not_not.2 ⟨ha, hb, hd⟩)
  unfold makeE0
  dsimp only
  rw [hpart]
  set l := nonDeg modes with hl
  have len1 : l.length ≤ l.length ^ 3 := Nat.le_self_pow (by norm_num) _
  have len2 : l.length * l.length ≤ l.length ^ 3 := by
    rw [pow_succ, pow_two]
    rcases Nat.eq_zero_or_pos l.length with h | h
    · simp [h]
    · exact Nat.le_mul_of_pos_right _ h
  have f4k := acc_addList c (d := 3) (e := 2) (by omega) l (fun k => (F4 k k k k).val / Arith.lit 64.0) (fun k => |(F4 k k k k).val| / 64)
    (fun k => F4 k k k k / Arith.lit 64.0) (fun k _ => acc_mono c (acc_div c (e := 2) (d := 0) (acc_exact c (F4 k k k k) _ _ rfl rfl)
      (rel_lit c 64.0) (U := 64) (by norm_num [lit_real]) (by omega) le_rfl) le_rfl (by omega) le_rfl) (e' := l.length ^ 3 + 6) (by omega)
  have f3k := acc_addList c (d := 3) (e := 6) (by omega) l
    (fun k => -Arith.lit 7.0 * sq (F3 k k k).val / (Arith.lit 576.0 * (w k).val))
    (fun k => 7 * (F3 k k k).val ^ 2 / (576 * (w k).val)) (fun k => -Arith.lit 7.0 * sq (F3 k k k) / (Arith.lit 576.0 * w k))
    (fun k hk => acc_mono c (acc_div c (e := 6) (d := 0) (acc_mul c (e := 3) (d := 0) (acc_neg c (acc_lit c 7.0 7 (by norm_num)))
      (acc_sq c (e := 1) (d := 0) (acc_exact c (F3 k k k) _ _ rfl rfl) (by omega) le_rfl) (by omega) le_rfl)
      (rel_mul c (rel_lit c 576.0) (rel_exact (w k) _ rfl) (e := 2) (d := 0) (by omega) le_rfl) (U := 576 * (w k).val)
      (by rw [lit_real, abs_of_nonneg (by have := hp k (hm k hk); positivity)]; norm_num) (by omega) le_rfl) le_rfl (by omega)
      (le_of_eq (by rw [abs_mul_abs_self, ← pow_two]))) (e' := l.length ^ 3 + 6) (by omega)
  have f3kkl := acc_addList c (d := 3) (e := 7) (by omega)
    (l.flatMap fun k => (l.filter fun l' => k ≠ l').map fun l' => (k, l'))
    (fun p => e0kkl (fun i => (w i).val) (fun a b c => (F3 a b c).val) t p.1 p.2)
    (fun p => 3 * (F3 p.1 p.1 p.2).val ^ 2 * (w p.2).val / (64 * |4 * (w p.1).val ^ 2 - (w p.2).val ^ 2|))
    (fun p => e0kkl w F3 t p.1 p.2) (fun p hq => by
      obtain ⟨a, ha, hq⟩ := List.mem_flatMap.1 hq
      obtain ⟨b, hb, rfl⟩ := List.mem_map.1 hq
      have hb' := (List.mem_filter.1 hb).1
      exact acc_mono c (acc_e0kkl c hp F3 t (hm a ha) (hm b hb') (ht a ha b hb') (ap' a ha a ha b hb')) le_rfl (by omega) le_rfl)
    (e' := l.length ^ 3 + 7) (by
      have := length_flatMap_le l (fun k => (l.filter fun l' => k ≠ l').map fun l' => (k, l')) l.length (fun b _ => by
        rw [List.length_map]; exact List.length_filter_le _ _)
      omega)
  have f3klm := acc_subList c (d := 3) (e := 12) (by omega)
    (l.flatMap fun k => (l.filter fun l' => k > l').flatMap fun l' => (l.filter fun m => l' > m).map fun m => (k, l', m))
    (fun p => e0klm (fun i => (w i).val) (fun a b c => (F3 a b c).val) chk p.1 p.2.1 p.2.2)
    (fun p => (F3 p.1 p.2.1 p.2.2).val ^ 2 * ((w p.1).val * (w p.2.1).val * (w p.2.2).val) /
      (4 * ((w p.1).val + (w p.2.1).val + (w p.2.2).val) * |(w p.1).val - (w p.2.1).val + (w p.2.2).val| *
        |(w p.1).val + (w p.2.1).val - (w p.2.2).val| * |(w p.1).val - (w p.2.1).val - (w p.2.2).val|))
    (fun p => e0klm w F3 chk p.1 p.2.1 p.2.2) (fun p hq => by
      obtain ⟨a, ha, hq⟩ := List.mem_flatMap.1 hq
      obtain ⟨b, hb, hq⟩ := List.mem_flatMap.1 hq
      obtain ⟨d, hd, rfl⟩ := List.mem_map.1 hq
      have hb := (List.mem_filter.1 hb).1
      have hd := (List.mem_filter.1 hd).1
      exact acc_e0klm c hp F3 chk (hm a ha) (hm b hb) (hm d hd) (hc _ ha _ hb _ hd) (hc _ hb _ hd _ ha) (hc _ ha _ hd _ hb)
        (ap' a ha d hd b hb) (ap' a ha b hb d hd) (ap' b hb d hd a ha))
    (e' := l.length ^ 3 + 12) (by
      have := length_flatMap_le l (fun k => (l.filter fun l' => k > l').flatMap fun l' => (l.filter fun m => l' > m).map fun m => (k, l', m))
        (l.length * l.length) (fun b _ => (length_flatMap_le _ _ l.length fun d _ => by
          rw [List.length_map]; exact List.length_filter_le _ _).trans (Nat.mul_le_mul_right _ (List.length_filter_le _ _)))
      rw [pow_succ, pow_two, Nat.mul_assoc]
      omega)
  refine acc_mono c (acc_add c (acc_add c (e := l.length ^ 3 + 8) (d := 3) (acc_add c (e := l.length ^ 3 + 7) (d := 3) f4k f3k
    (by omega) (by omega) le_rfl le_rfl) f3kkl (by omega) (by omega) le_rfl le_rfl) f3klm (by omega) (by omega) le_rfl le_rfl)
    le_rfl le_rfl (le_of_eq ?_)
  unfold e0Size
  simp only [list_sum_flatMap_map, List.map_map, Function.comp_def, gt_iff_lt]

end

/-- C117: let no listed resonance couple three non-degenerate modes. The zero-point constant of an asymmetric top computed with
rounded arithmetic differs from that of exact second-order perturbation theory for the same frequencies and force constants by at
most `2 (K³ + 13 + 24 κ) u` times the sum of the sizes of its terms, where `K` is the number of non-degenerate modes, if no combination
`w_a + w_b - w_c` of their frequencies is closer to zero than the `κ`-th part of `w_a + w_b + w_c`. -/
theorem c117_zero_point (hr : Rounds u rnd) (h1 : 1 ≤ κ) (n : Nat) (F4 : T4 (Fl rnd)) (w : Vec (Fl rnd)) (F3 zeta : T3 (Fl rnd))
    (B : Vec (Fl rnd)) (modes : List Mode) (f1 : List Fermi1) (f2 : List Fermi2)
    (hu : (((nonDeg modes).length ^ 3 : ℕ) + 13 + 24 * κ : ℝ) * u ≤ 1 / 2) (hm : ∀ a ∈ nonDeg modes, a < n)
    (hn : ∀ a ∈ nonDeg modes, ∀ b ∈ nonDeg modes, ∀ c ∈ nonDeg modes, ¬ Listed f1 f2 a b c) (hp : ∀ i < n, 0 < (w i).val)
    (ap : ApartBy κ n (fun a b c => ¬ (a ∈ nonDeg modes ∧ b ∈ nonDeg modes ∧ c ∈ nonDeg modes)) fun i => (w i).val) :
    let W : Nat → ℝ := fun i => (w i).val
    let φ : Nat → Nat → Nat → ℝ := fun a b c => (F3 a b c).val
    let ψ : Nat → Nat → Nat → Nat → ℝ := fun a b c d => (F4 a b c d).val
    |(xcalc n F4 w F3 zeta B modes f1 f2).2.val - e0Spec (Listed f1 f2) (nonDeg modes) W φ ψ| ≤
      2 * ((((nonDeg modes).length ^ 3 : ℕ) + 13 + 24 * κ) * u) * e0Size (nonDeg modes) W φ ψ := by
  intro W φ ψ
  obtain ⟨g1, g2⟩ := c107_growth hr.1 h1 ((nonDeg modes).length ^ 3 + 13) 3 (by norm_num) (by push_cast at hu ⊢; linarith)
  have c : RoundCtx u κ rnd := ⟨hr, h1, g1⟩
  have ne : ∀ a ∈ nonDeg modes, ∀ b ∈ nonDeg modes, ∀ d ∈ nonDeg modes, W a + W b - W d ≠ 0 := fun a ha b hb d hd =>
    apartBy_ne c hp (hm a ha) (hm b hb) (hm d hd) (ap a b d (hm a ha) (hm b hb) (hm d hd) (not_not.2 ⟨ha, hb, hd⟩))
  have reg : E0Regular (nonDeg modes) W := by
    refine ⟨fun a ha b hb _ => ⟨?_, ?_⟩, fun a ha b hb d hd _ _ => ⟨?_, ?_, ne a ha b hb d hd, ?_⟩⟩
    · have := hp a (hm a ha); have := hp b (hm b hb); positivity
    · have := ne a ha a ha b hb; rwa [← two_mul] at this
    · have := hp a (hm a ha); have := hp b (hm b hb); have := hp d (hm d hd); positivity
    · have := ne a ha d hd b hb; intro h; exact this (by linarith)
    · have := ne b hb d hd a ha; intro h; exact this (by linarith)
  rw [← c32_partial n ψ W φ (fun a b c => (zeta a b c).val) (fun a => (B a).val) modes f1 f2 hn reg]
  have acc := acc_makeE0 c hp F4 F3 modes (makeFermiChecks f1 f2).ifrm1 (makeFermiChecks f1 f2).ifrmchk hm
    (fun a ha b hb h => by
      obtain ⟨l₁, l₂, rfl, -⟩ := (c27_type1 f1 f2 a b).1 h
      exact hn a ha a ha b hb (.inl ⟨rfl, by simp⟩))
    (fun a ha b hb d hd => not_not.1 fun h => hn a ha b hb d hd ((chk_iff f1 f2 a b d).1 h)) ap
  refine acc.1.trans (mul_le_mul_of_nonneg_right (g2.trans (le_of_eq ?_)) ((abs_nonneg _).trans acc.2))
  push_cast
  ring

section
variable (c : RoundCtx u κ rnd)
include c

theorem acc_halfQuanta (q : Nat) : Acc u κ 2 0 (ofNat q + Arith.lit 0.5 : ℝ) (ofNat q + Arith.lit 0.5 : Fl rnd) ((q : ℝ) + 1 / 2) :=
  acc_add c (acc_lit c (q : ℚ) (q : ℝ) (by simp)) (acc_lit c 0.5 (1 / 2) (by norm_num)) (by omega) (by omega) le_rfl le_rfl

/-- The energy of a state of non-degenerate modes, computed from constants that carry errors themselves. -/
theorem acc_levels {N : Nat} (w : Vec (Fl rnd)) (hp : ∀ i < N, 0 < (w i).val) (x : Mat ℝ) (X : Mat (Fl rnd)) (S : Nat → Nat → ℝ)
    (hx : ∀ k l, l ≤ k → k < N → Acc u κ (N + 16) 3 (x k l) (X k l) (S k l)) (e0 T0 : ℝ) (E0 : Fl rnd)
    (h0 : Acc u κ (N ^ 3 + 13) 3 e0 E0 T0) (g : Option (Mat (Fl rnd))) (v1 : List Nat) (v2 : List (Nat × Nat)) (hv : N ≤ v1.length) :
    ∃ r, stateEnergy (List.range N) [] w X g E0 v1 v2 = some r ∧ Acc u κ (N ^ 3 + N ^ 2 + N + 28) 3
      (∑ i ∈ Finset.range N, (w i).val * ((v1.getD i 0 : ℝ) + 1 / 2) + ∑ k ∈ Finset.range N, ∑ l ∈ Finset.range (k + 1),
        x k l * ((v1.getD k 0 : ℝ) + 1 / 2) * ((v1.getD l 0 : ℝ) + 1 / 2) + e0) r
      (∑ i ∈ Finset.range N, (w i).val * ((v1.getD i 0 : ℝ) + 1 / 2) + ∑ k ∈ Finset.range N, ∑ l ∈ Finset.range (k + 1),
        S k l * ((v1.getD k 0 : ℝ) + 1 / 2) * ((v1.getD l 0 : ℝ) + 1 / 2) + T0) := by
  have get : ∀ i < N, (List.range N).getD i 0 = i := fun i hi => by simp [List.getD_eq_getElem?_getD, hi]
  have hl : (List.range N).length ≤ v1.length ∧ ([] : List (Nat × Nat)).length ≤ v2.length := by simpa using hv
  have half : ∀ q : Nat, (ofNat q + Arith.lit 0.5 : ℝ) = (q : ℝ) + 1 / 2 := fun q => by rw [ofNat_real, lit_real]; norm_num
  have N3 : N ≤ N ^ 3 := Nat.le_self_pow (by norm_num) _
  have lq := leqPairs_length N
  rw [← pow_two] at lq
  have val1 := acc_addList c (d := 3) (e := 3) (by omega) (List.range N)
    (fun ii => (w ii).val * (ofNat (v1.getD ii 0) + Arith.lit 0.5))
    (fun ii => (w ii).val * ((v1.getD ii 0 : ℝ) + 1 / 2)) (fun ii => w ((List.range N).getD ii 0) * (ofNat (v1.getD ii 0) + Arith.lit 0.5))
    (fun ii hi => by
      rw [get ii (List.mem_range.1 hi)]
      exact acc_mul c (acc_exact c (w ii) _ _ rfl (abs_of_pos (hp ii (List.mem_range.1 hi)))) (acc_halfQuanta c _) (by omega) (by omega))
    (e' := N + 3) (by rw [List.length_range]; omega)
  have val3 := acc_addList c (d := 3) (e := N + 22) (by omega) (leqPairs N)
    (fun p => x p.1 p.2 * (ofNat (v1.getD p.1 0) + Arith.lit 0.5) * (ofNat (v1.getD p.2 0) + Arith.lit 0.5))
    (fun p => S p.1 p.2 * ((v1.getD p.1 0 : ℝ) + 1 / 2) * ((v1.getD p.2 0 : ℝ) + 1 / 2))
    (fun p => X ((List.range N).getD p.1 0) ((List.range N).getD p.2 0) * (ofNat (v1.getD p.1 0) + Arith.lit 0.5) *
      (ofNat (v1.getD p.2 0) + Arith.lit 0.5))
    (fun p hq => by
      obtain ⟨a, ha, hq⟩ := List.mem_flatMap.1 hq
      obtain ⟨b, hb, rfl⟩ := List.mem_map.1 hq
      have ha := List.mem_range.1 ha
      have hb := List.mem_range.1 hb
      dsimp only
      rw [get a ha, get b (by omega)]
      exact acc_mul c (acc_mul c (e := N + 19) (d := 3) (hx a b (by omega) ha) (acc_halfQuanta c _) (by omega) (by omega))
        (acc_halfQuanta c _) (by omega) (by omega))
    (e' := N ^ 2 + N + 22) (by omega)
  have z0 : Acc u κ 1 3 (Arith.lit 0 : ℝ) (Arith.lit 0 : Fl rnd) 0 := acc_mono c (acc_lit c 0 0 (by simp)) le_rfl (by omega) le_rfl
  have z1 : Acc u κ 1 3 (Arith.lit 0.0 : ℝ) (Arith.lit 0.0 : Fl rnd) 0 :=
    acc_mono c (acc_lit c 0.0 0 (by norm_num)) le_rfl (by omega) le_rfl
  refine ⟨_, by rw [stateEnergy]; dsimp only; rw [if_pos hl, engVal6, if_pos (show ([] : List (Nat × Nat)).length = 0 from rfl)]; rfl, ?_⟩
  have pairsN : pairs N 0 = [] := List.eq_nil_of_length_eq_zero (by rw [pairs_length]; omega)
  rw [List.length_range, List.length_nil, pairsN]
  have key := acc_add c (e := N ^ 3 + N ^ 2 + N + 28) (d := 3) (acc_add c (e := N ^ 2 + N + 26) (d := 3) (acc_add c (e := N ^ 2 + N + 25) (d := 3)
    (acc_add c (e := N ^ 2 + N + 24) (d := 3) (acc_add c (e := N ^ 2 + N + 23) (d := 3) (acc_add c (e := N + 4) (d := 3) val1 z0 (by omega)
    (by omega) le_rfl le_rfl) val3 (by omega) (by omega) le_rfl le_rfl) z0 (by omega) (by omega) le_rfl le_rfl)
    z0 (by omega) (by omega) le_rfl le_rfl) z1 (by omega) (by omega) le_rfl le_rfl) h0 (by omega) (by omega) le_rfl le_rfl
  have sums : ∀ f : Nat → Nat → ℝ, ((leqPairs N).map fun p => f p.1 p.2).sum = ∑ k ∈ Finset.range N, ∑ l ∈ Finset.range (k + 1), f k l := by
    intro f
    unfold leqPairs
    rw [list_sum_flatMap_map]
    simp only [List.map_map, Function.comp_def, range_sum_list]
  simp only [sumL_real, half] at key
  rw [sums fun k l => x k l * ((v1.getD k 0 : ℝ) + 1 / 2) * ((v1.getD l 0 : ℝ) + 1 / 2),
    sums fun k l => S k l * ((v1.getD k 0 : ℝ) + 1 / 2) * ((v1.getD l 0 : ℝ) + 1 / 2), range_sum_list,
    show (Arith.lit 0 : ℝ) = 0 by simp [lit_real], show (Arith.lit 0.0 : ℝ) = 0 by rw [lit_real]; norm_num] at key
  simp only [add_zero] at key
  exact key

end

/-- The energy of a state of an asymmetric top without Fermi resonances, with the constants of `xcalc`. -/
theorem acc_state (hr : Rounds u rnd) (h1 : 1 ≤ κ) (hκ : κ * ((1 / (1 - u)) ^ 4 - 1) < 1) (N : Nat)
    (F4 : T4 (Fl rnd)) (w : Vec (Fl rnd)) (F3 zeta : T3 (Fl rnd)) (B : Vec (Fl rnd)) (modes : List Mode)
    (hm : nonDeg modes = List.range N) (hp : ∀ i < N, 0 < (w i).val) (ap : ApartBy κ N (fun _ _ _ => False) fun i => (w i).val)
    (s : State) (r : Fl rnd) (hr2 : stateEnergy (List.range N) [] w (xcalc N F4 w F3 zeta B modes [] []).1 none
      (xcalc N F4 w F3 zeta B modes [] []).2 s.v1 s.v2 = some r) :
    let W : Nat → ℝ := fun i => (w i).val
    let φ : Nat → Nat → Nat → ℝ := fun a b c => (F3 a b c).val
    let ψ : Nat → Nat → Nat → Nat → ℝ := fun a b c d => (F4 a b c d).val
    let ζ : Nat → Nat → Nat → ℝ := fun a b c => (zeta a b c).val
    let A : Nat → ℝ := fun a => (B a).val
    Acc u κ (N ^ 3 + N ^ 2 + N + 28) 3 (e0Spec (fun _ _ _ => False) (List.range N) W φ ψ
      + ∑ i ∈ Finset.range N, W i * (((s.occ (1, i)).1 : ℝ) + 1 / 2)
      + ∑ k ∈ Finset.range N, ∑ l ∈ Finset.range (k + 1), xSpec (fun _ _ _ => False) N W φ ψ ζ A k l *
        (((s.occ (1, k)).1 : ℝ) + 1 / 2) * (((s.occ (1, l)).1 : ℝ) + 1 / 2)) r (levelSize N W φ ψ ζ A fun i => (s.occ (1, i)).1) := by
  intro W φ ψ ζ A
  have hL : Listed [] [] = fun _ _ _ => False := by
    funext a b c
    simp [Listed]
  have c : RoundCtx u κ rnd := ⟨hr, h1, hκ⟩
  have hw : Osc.NoResonance N W := fun a b d ha hb hd => ⟨by
    have := hp a ha; have := hp b hb; have := hp d hd; positivity, apartBy_ne c hp ha hb hd (ap a b d ha hb hd id)⟩
  have hv : N ≤ s.v1.length := by
    by_contra hc
    rw [stateEnergy] at hr2
    simp only [List.length_range, hc, false_and, if_false] at hr2
    cases hr2
  have none3 : ∀ k l m, k < N → l < N → m < N → k ≠ l → OneOfThree (fun _ _ _ => False) k l m := fun k l m _ _ _ _ => by
    simp [OneOfThree]
  have chk : ∀ i j k, (makeFermiChecks [] []).ifrmchk i j k ≠ 0 ↔ (fun _ _ _ => False : Nat → Nat → Nat → Prop) i j k := fun i j k => by
    rw [chk_iff, hL]
  have mr : ∀ a ∈ nonDeg modes, a < N := fun a ha => by rw [hm] at ha; exact List.mem_range.1 ha
  have hx : ∀ k l, l ≤ k → k < N → Acc u κ (N + 16) 3 ((xcalc N ψ W φ ζ A modes [] []).1 k l)
      ((xcalc N F4 w F3 zeta B modes [] []).1 k l) (if l = k then diagSize (fun _ _ _ => False) N W φ ψ k
        else offSize (fun _ _ _ => False) N W φ ψ ζ A k l) := by
    intro k l hl hk
    show Acc u κ _ _ (xcalcMat _ _ _ _ _ _ _ k l) (xcalcMat _ _ _ _ _ _ _ k l) _
    rcases hl.eq_or_lt with rfl | hl
    · rw [if_pos rfl, xcalcMat_diag _ _ _ _ _ _ _ _ hk, xcalcMat_diag _ _ _ _ _ _ _ _ hk]
      exact acc_mono c (acc_xDiag c hp ap chk F4 F3 hk) (by omega) (by omega) le_rfl
    · rw [if_neg hl.ne, (xcalcMat_off _ _ _ _ _ _ _ k l hl hk).1, (xcalcMat_off _ _ _ _ _ _ _ k l hl hk).1]
      exact acc_xOff c hp ap chk none3 F4 F3 zeta B hk (hl.trans hk) hl.ne'
  have he := acc_makeE0 c hp F4 F3 modes (makeFermiChecks [] []).ifrm1 (makeFermiChecks [] []).ifrmchk mr
    (fun a ha b hb h => by
      obtain ⟨l₁, l₂, h, -⟩ := (c27_type1 [] [] a b).1 h
      simp at h)
    (fun a ha b hb d hd => not_not.1 fun h => ((chk a b d).1 h))
    (fun a b d ha hb hd _ => ap a b d ha hb hd id)
  rw [hm, List.length_range] at he
  obtain ⟨r', e1, acc⟩ := acc_levels c w hp _ _ _ hx _ _ _ he none s.v1 s.v2 hv
  obtain rfl : r' = r := Option.some.inj (e1.symm.trans hr2)
  simp only [v1_occ] at acc
  obtain ⟨sx, se⟩ := xcalc_spec ψ φ ζ A modes hp hw hm
  have eqE : e0Spec (fun _ _ _ => False) (List.range N) W φ ψ + ∑ i ∈ Finset.range N, W i * (((s.occ (1, i)).1 : ℝ) + 1 / 2)
      + ∑ k ∈ Finset.range N, ∑ l ∈ Finset.range (k + 1), xSpec (fun _ _ _ => False) N W φ ψ ζ A k l *
        (((s.occ (1, k)).1 : ℝ) + 1 / 2) * (((s.occ (1, l)).1 : ℝ) + 1 / 2) =
      ∑ i ∈ Finset.range N, W i * (((s.occ (1, i)).1 : ℝ) + 1 / 2) + ∑ k ∈ Finset.range N, ∑ l ∈ Finset.range (k + 1),
        (xcalc N ψ W φ ζ A modes [] []).1 k l * (((s.occ (1, k)).1 : ℝ) + 1 / 2) * (((s.occ (1, l)).1 : ℝ) + 1 / 2) +
      makeE0 modes ψ φ W (makeFermiChecks [] []).ifrm1 (makeFermiChecks [] []).ifrmchk := by
    rw [← se, Finset.sum_congr rfl fun k hk => Finset.sum_congr rfl fun l hl => by
      rw [← sx k l (by have := Finset.mem_range.1 hl; omega) (Finset.mem_range.1 hk)]]
    show makeE0 modes ψ φ W (makeFermiChecks [] []).ifrm1 (makeFermiChecks [] []).ifrmchk + _ + _ = _
    ring
  have size : levelSize N W φ ψ ζ A (fun i => (s.occ (1, i)).1) = ∑ i ∈ Finset.range N, W i * (((s.occ (1, i)).1 : ℝ) + 1 / 2) +
      ∑ k ∈ Finset.range N, ∑ l ∈ Finset.range (k + 1), (if l = k then diagSize (fun _ _ _ => False) N W φ ψ k
        else offSize (fun _ _ _ => False) N W φ ψ ζ A k l) * (((s.occ (1, k)).1 : ℝ) + 1 / 2) * (((s.occ (1, l)).1 : ℝ) + 1 / 2) +
      e0Size (List.range N) W φ ψ := by
    unfold levelSize
    ring
  rw [eqE, size]
  exact acc

/-- C117, energies: let an asymmetric top have no Fermi resonances. Before other resonances are treated, the energy of every vibrational
state computed with rounded arithmetic, from anharmonic constants and a zero-point constant that are computed with rounded arithmetic
themselves, differs from the energy to second order of perturbation theory for the vibrational Hamiltonian with the same
frequencies and constants, apart from the constant `-½ Σ_a B_a Σ_{l < k} ζ_kl²` that the code leaves out (C102), by at most
`2 (N³ + N² + N + 28 + 24 κ) u` times the sum of the sizes of the terms. -/
theorem c117_levels (hr : Rounds u rnd) (h1 : 1 ≤ κ) (N : Nat) (hu : ((N : ℝ) ^ 3 + N ^ 2 + N + 28 + 24 * κ) * u ≤ 1 / 2)
    (F4 : T4 (Fl rnd)) (w : Vec (Fl rnd)) (F3 zeta : T3 (Fl rnd)) (B : Vec (Fl rnd)) (modes : List Mode)
    (hm : nonDeg modes = List.range N) (hd : degPairs modes = [])
    (hp : ∀ i < N, 0 < (w i).val) (ap : ApartBy κ N (fun _ _ _ => False) fun i => (w i).val)
    (h3 : Symm3 N fun a b c => (F3 a b c).val) (h4 : Symm4 N fun a b c d => (F4 a b c d).val)
    (hz : ∀ a k l, k < N → l < N → (zeta k l a).val = -(zeta l k a).val) (states : List State) (init eng : List (Fl rnd))
    (hi : init.length = states.length) (h : let X := xcalc N F4 w F3 zeta B modes [] []
      part1Eng states.length (Mode.partition modes).1 (Mode.partition modes).2.1 w X.1 none X.2 (State.partition states) init = some eng) :
    let W : Nat → ℝ := fun i => (w i).val
    let φ : Nat → Nat → Nat → ℝ := fun a b c => (F3 a b c).val
    let ψ : Nat → Nat → Nat → Nat → ℝ := fun a b c d => (F4 a b c d).val
    let ζ : Nat → Nat → Nat → ℝ := fun a b c => (zeta a b c).val
    let A : Nat → ℝ := fun a => (B a).val
    eng.length = states.length ∧ ∀ (k : Nat) (s : State), states[k]? = some s → ∃ r, eng[k]? = some r ∧
      ∀ E0 E1 E2, Osc.VibEnergy W φ ψ ζ A (fun i : Fin N => (s.occ (1, i)).1) E0 E1 E2 →
        |r.val - (E0 + E1 + E2 + 1 / 2 * ∑ k ∈ Finset.range N, ∑ l ∈ Finset.range k, ∑ a ∈ Finset.range 3, A a * ζ k l a ^ 2)| ≤
          2 * (((N : ℝ) ^ 3 + N ^ 2 + N + 28 + 24 * κ) * u) * levelSize N W φ ψ ζ A fun i => (s.occ (1, i)).1 := by
  intro W φ ψ ζ A
  obtain ⟨g1, g2⟩ := c107_growth hr.1 h1 (N ^ 3 + N ^ 2 + N + 28) 3 (by norm_num) (by push_cast; linarith)
  have c : RoundCtx u κ rnd := ⟨hr, h1, g1⟩
  have hw : Osc.NoResonance N W := fun a b d ha hb hd => ⟨by
    have := hp a ha; have := hp b hb; have := hp d hd; positivity, apartBy_ne c hp ha hb hd (ap a b d ha hb hd id)⟩
  dsimp only at h
  rw [part1_eq _ _ _ _ _ _ _ _ hi, part_nonDeg, part_degPairs, mapM_option_some, hm, hd] at h
  have hlen : eng.length = states.length := by
    have := congrArg List.length h
    simpa using this.symm
  refine ⟨hlen, fun k s hk => ?_⟩
  have hs := congrArg (·[k]?) h
  simp only [List.getElem?_map, hk, Option.map_some] at hs
  obtain ⟨r, hr1, hr2⟩ : ∃ r, eng[k]? = some r ∧ stateEnergy (List.range N) [] w (xcalc N F4 w F3 zeta B modes [] []).1 none
      (xcalc N F4 w F3 zeta B modes [] []).2 s.v1 s.v2 = some r := by
    cases he : eng[k]? with
    | none => rw [he] at hs; simp at hs
    | some r => rw [he] at hs; exact ⟨r, rfl, by simpa using hs⟩
  refine ⟨r, hr1, fun E0 E1 E2 hE => ?_⟩
  obtain ⟨a0, a1, a2⟩ := c102_levels N ψ W φ ζ A modes hm h3 h4 hz hp hw (fun i => (s.occ (1, i)).1) E0 E1 E2 hE
  obtain ⟨sx, se⟩ := xcalc_spec ψ φ ζ A modes hp hw hm
  have acc := acc_state hr h1 g1 N F4 w F3 zeta B modes hm hp ap s r hr2
  refine (le_of_eq (congrArg (fun y => |r.val - y|) ?_)).trans
    (acc.1.trans (mul_le_mul_of_nonneg_right (g2.trans (le_of_eq ?_)) ((abs_nonneg _).trans acc.2)))
  · rw [a0, a1, a2, ← se, Finset.sum_congr rfl fun k hk => Finset.sum_congr rfl fun l hl => by
      rw [sx k l (by have := Finset.mem_range.1 hl; omega) (Finset.mem_range.1 hk)]]
    ring
  · push_cast
    ring

/-- Three frequencies, 1500, 1250 and 1000, are apart by the ninth part of their sums. -/
theorem closeFreqs_apart : ApartBy 9 3 (fun _ _ _ => False) closeFreqs := by
  intro k l m hk hl hm _
  unfold closeFreqs
  interval_cases k <;> interval_cases l <;> interval_cases m <;> norm_num [abs_of_pos]

/-- Double precision and three coupled modes: the hypotheses of `c117_zero_point` are met with `κ = 9`. -/
example : let w : Vec (Fl (nearest 53)) := fun i => ⟨closeFreqs i⟩
    let modes : List Mode := [.i1 0, .i1 1, .i1 2]
    Rounds (2 ^ (-(53 : ℕ) : ℤ)) (nearest 53) ∧
    (((nonDeg modes).length ^ 3 : ℕ) + 13 + 24 * 9 : ℝ) * 2 ^ (-(53 : ℕ) : ℤ) ≤ 1 / 2 ∧ (∀ a ∈ nonDeg modes, a < 3) ∧
    (∀ a ∈ nonDeg modes, ∀ b ∈ nonDeg modes, ∀ c ∈ nonDeg modes, ¬ Listed [] [] a b c) ∧ (∀ i < 3, 0 < (w i).val) ∧
    ApartBy 9 3 (fun a b c => ¬ (a ∈ nonDeg modes ∧ b ∈ nonDeg modes ∧ c ∈ nonDeg modes)) fun i => (w i).val := by
  intro w modes
  refine ⟨c107_nearest 53 (by norm_num), ?_, ?_, fun _ _ _ _ _ _ => by simp [Listed], closeFreqs_pos,
    fun k l m hk hl hm _ => closeFreqs_apart k l m hk hl hm id⟩
  · rw [show (nonDeg modes).length = 3 from rfl]
    norm_num
  · rw [show nonDeg modes = List.range 3 from rfl]
    exact fun a ha => List.mem_range.1 ha

/-- Double precision and three coupled modes, the ground state and a state with one quantum: the hypotheses of `c117_levels` are met with
`κ = 9`, and there are energies to compare with. -/
example : let w : Vec (Fl (nearest 53)) := fun i => ⟨closeFreqs i⟩
    let modes : List Mode := [.i1 0, .i1 1, .i1 2]
    let F3 : T3 (Fl (nearest 53)) := fun _ _ _ => ⟨20⟩
    let F4 : T4 (Fl (nearest 53)) := fun _ _ _ _ => ⟨5⟩
    let zeta : T3 (Fl (nearest 53)) := fun k l _ => ⟨((k : ℝ) - l) / 2⟩
    let B : Vec (Fl (nearest 53)) := fun _ => ⟨10⟩
    let states : List State := [.i1st [0, 0, 0], .i1st [0, 1, 0]]
    ((3 : ℕ) ^ 3 + (3 : ℕ) ^ 2 + (3 : ℕ) + 28 + 24 * 9 : ℝ) * 2 ^ (-(53 : ℕ) : ℤ) ≤ 1 / 2 ∧ nonDeg modes = List.range 3 ∧
    degPairs modes = [] ∧ ApartBy 9 3 (fun _ _ _ => False) (fun i => (w i).val) ∧
    (Symm3 3 fun a b c => (F3 a b c).val) ∧ (Symm4 3 fun a b c d => (F4 a b c d).val) ∧
    (∀ a k l, k < 3 → l < 3 → (zeta k l a).val = -(zeta l k a).val) ∧
    (∃ eng, part1Eng states.length (Mode.partition modes).1 (Mode.partition modes).2.1 w (xcalc 3 F4 w F3 zeta B modes [] []).1 none
      (xcalc 3 F4 w F3 zeta B modes [] []).2 (State.partition states) [⟨0⟩, ⟨0⟩] = some eng) ∧
    ∀ s ∈ states, ∃ E0 E1 E2, Osc.VibEnergy (fun i => (w i).val) (fun a b c => (F3 a b c).val) (fun a b c d => (F4 a b c d).val)
      (fun a b c => (zeta a b c).val) (fun a => (B a).val) (fun i : Fin 3 => (s.occ (1, i)).1) E0 E1 E2 := by
  intro w modes F3 F4 zeta B states
  refine ⟨by norm_num, rfl, rfl, closeFreqs_apart, fun _ _ _ _ _ _ => ⟨rfl, rfl⟩, fun _ _ _ _ _ _ _ _ => ⟨rfl, rfl, rfl⟩,
    fun a k l _ _ => by simp only [zeta]; ring, ⟨_, rfl⟩, fun s hs => ?_⟩
  refine c102_exists 3 closeFreqs (fun _ _ _ => 20) (fun k l _ => ((k : ℝ) - l) / 2) (fun _ _ _ _ => 5) (fun _ => 10)
    (fun i => (s.occ (1, i)).1) (closeFreqs_alone _ ?_)
  simp only [states, List.mem_cons, List.not_mem_nil, or_false] at hs
  rcases hs with rfl | rfl <;> simp [State.occ]

end Verif
