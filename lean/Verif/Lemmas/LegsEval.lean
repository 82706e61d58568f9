import Verif.Lemmas.LegsAdjoint
import Verif.Lemmas.LadderRes

/-!
# Matrix elements of products of four raising and lowering operators

Helpers for C108.
-/

namespace Verif.Osc

open Finset

variable {σ : Type} [Fintype σ] [DecidableEq σ]

/-- One term of an expression of fourth degree. -/
noncomputable def term4 (C : Leg σ → Leg σ → Leg σ → Leg σ → ℝ) (n m : σ → ℤ) (x y v t : Leg σ) : ℝ :=
  C x y v t * lop x (lop y (lop v (lop t (one n)))) m

theorem lop4_ne {n m : σ → ℤ} {x y v t : Leg σ} (h : lop x (lop y (lop v (lop t (one n)))) m ≠ 0) :
    net x + net y + net v + net t = m - n := by
  simp only [lop_apply, one] at h
  by_contra hc
  apply h
  rw [if_neg, mul_zero, mul_zero, mul_zero, mul_zero]
  intro e
  apply hc
  rw [← e]; abel

theorem lop4 {n m : σ → ℤ} {x y v t : Leg σ} (h : m = n + net x + net y + net v + net t) :
    lop x (lop y (lop v (lop t (one n)))) m =
      co x m * co y (m - net x) * co v (m - net x - net y) * co t (m - net x - net y - net v) := by
  simp only [lop_apply, one]
  rw [if_pos (by rw [h]; abel)]
  ring

theorem sum_net (l : Leg σ) : ∑ v, net l v = if l.2 then 1 else -1 := by
  obtain ⟨i, u⟩ := l
  cases u <;> simp [net, sum_unit]

/-- The six terms with two raising operators `a`, `b` and two lowering operators `c`, `d`. -/
noncomputable def six (C : Leg σ → Leg σ → Leg σ → Leg σ → ℝ) (n m : σ → ℤ) (a b c d : σ) : ℝ :=
  term4 C n m (a, true) (b, true) (c, false) (d, false) + term4 C n m (a, true) (c, false) (b, true) (d, false) +
  term4 C n m (a, true) (c, false) (d, false) (b, true) + term4 C n m (c, false) (a, true) (b, true) (d, false) +
  term4 C n m (c, false) (a, true) (d, false) (b, true) + term4 C n m (c, false) (d, false) (a, true) (b, true)

theorem tess_six (C : Leg σ → Leg σ → Leg σ → Leg σ → ℝ) {n m : σ → ℤ} (h : ∑ v, (m - n) v = 0) :
    tess lop C (one n) m = ∑ a, ∑ b, ∑ c, ∑ d, six C n m a b c d := by
  have z : ∀ (u1 u2 u3 u4 : Bool), ((if u1 then 1 else -1) + (if u2 then 1 else -1) + (if u3 then 1 else -1) +
      (if u4 then 1 else -1) : ℤ) ≠ 0 → ∀ a b c d : σ, term4 C n m (a, u1) (b, u2) (c, u3) (d, u4) = 0 := by
    intro u1 u2 u3 u4 hu a b c d
    unfold term4
    by_contra hc
    have := lop4_ne (right_ne_zero_of_mul hc)
    apply hu
    rw [← this] at h
    simpa only [Pi.add_apply, sum_add_distrib, sum_net] using h
  have e : tess lop C (one n) m = ∑ u1 : Bool, ∑ u2 : Bool, ∑ u3 : Bool, ∑ u4 : Bool,
      ∑ a, ∑ b, ∑ c, ∑ d, term4 C n m (a, u1) (b, u2) (c, u3) (d, u4) := by
    rw [tess_apply]
    simp only [sum_leg, Fintype.sum_bool, ← sum_add_distrib]
    refine sum_congr rfl fun a _ => sum_congr rfl fun b _ => sum_congr rfl fun c _ => sum_congr rfl fun d _ => ?_
    simp only [term4]
  rw [e]
  simp only [Fintype.sum_bool]
  simp only [z true true true true (by decide), z true true true false (by decide), z true true false true (by decide),
    z true false true true (by decide), z false true true true (by decide), z true false false false (by decide),
    z false true false false (by decide), z false false true false (by decide), z false false false true (by decide),
    z false false false false (by decide), sum_const_zero, add_zero, zero_add]
  simp only [six, sum_add_distrib]
  have r1 : ∑ a, ∑ b, ∑ c, ∑ d, term4 C n m (a, true) (b, false) (c, true) (d, false) =
      ∑ a, ∑ b, ∑ c, ∑ d, term4 C n m (a, true) (c, false) (b, true) (d, false) :=
    sum_congr rfl fun a _ => sum_comm
  have r2 : ∑ a, ∑ b, ∑ c, ∑ d, term4 C n m (a, true) (b, false) (c, false) (d, true) =
      ∑ a, ∑ b, ∑ c, ∑ d, term4 C n m (a, true) (c, false) (d, false) (b, true) := by
    refine sum_congr rfl fun a _ => ?_
    exact (sum_congr rfl fun b _ => sum_comm).trans sum_comm
  have r3 : ∑ a, ∑ b, ∑ c, ∑ d, term4 C n m (a, false) (b, true) (c, true) (d, false) =
      ∑ a, ∑ b, ∑ c, ∑ d, term4 C n m (c, false) (a, true) (b, true) (d, false) :=
    sum_comm.trans (sum_congr rfl fun a _ => sum_comm)
  have r4 : ∑ a, ∑ b, ∑ c, ∑ d, term4 C n m (a, false) (b, true) (c, false) (d, true) =
      ∑ a, ∑ b, ∑ c, ∑ d, term4 C n m (c, false) (a, true) (d, false) (b, true) := by
    refine sum_comm.trans (sum_congr rfl fun a _ => ?_)
    exact (sum_congr rfl fun b _ => sum_comm).trans sum_comm
  have r5 : ∑ a, ∑ b, ∑ c, ∑ d, term4 C n m (a, false) (b, false) (c, true) (d, true) =
      ∑ a, ∑ b, ∑ c, ∑ d, term4 C n m (c, false) (d, false) (a, true) (b, true) := by
    rw [sum_four, sum_four]
    exact Fintype.sum_equiv ⟨fun p => (p.2.2.1, p.2.2.2, p.1, p.2.1), fun p => (p.2.2.1, p.2.2.2, p.1, p.2.1),
      fun _ => rfl, fun _ => rfl⟩ _ _ fun p => rfl
  rw [r1, r2, r3, r4, r5]
  ring

theorem six_ne {C : Leg σ → Leg σ → Leg σ → Leg σ → ℝ} {n m : σ → ℤ} {a b c d : σ} (h : six C n m a b c d ≠ 0) :
    unit a + unit b - unit c - unit d = m - n := by
  by_contra hc
  have z : ∀ x y v t : Leg σ, net x + net y + net v + net t = unit a + unit b - unit c - unit d → term4 C n m x y v t = 0 := by
    intro x y v t e
    unfold term4
    by_contra h0
    exact hc (e.symm.trans (lop4_ne (right_ne_zero_of_mul h0)))
  apply h
  unfold six
  rw [z, z, z, z, z, z]
  · norm_num
  all_goals simp only [net, if_true, Bool.false_eq_true, if_false]; abel

/-- The value of the six terms. -/
theorem six_value (C : Leg σ → Leg σ → Leg σ → Leg σ → ℝ) {n m : σ → ℤ} {a b c d : σ}
    (h : unit a + unit b - unit c - unit d = m - n) : six C n m a b c d =
    C (a, true) (b, true) (c, false) (d, false) * (((m c : ℝ) - unit a c - unit b c + 1) * ((m d : ℝ) - unit a d - unit b d + unit c d + 1)) +
    C (a, true) (c, false) (b, true) (d, false) * (((m c : ℝ) - unit a c + 1) * ((m d : ℝ) - unit a d + unit c d - unit b d + 1)) +
    C (a, true) (c, false) (d, false) (b, true) * (((m c : ℝ) - unit a c + 1) * ((m d : ℝ) - unit a d + unit c d + 1)) +
    C (c, false) (a, true) (b, true) (d, false) * (((m c : ℝ) + 1) * ((m d : ℝ) + unit c d - unit a d - unit b d + 1)) +
    C (c, false) (a, true) (d, false) (b, true) * (((m c : ℝ) + 1) * ((m d : ℝ) + unit c d - unit a d + 1)) +
    C (c, false) (d, false) (a, true) (b, true) * (((m c : ℝ) + 1) * ((m d : ℝ) + unit c d + 1)) := by
  have hm : m = n + (unit a + unit b - unit c - unit d) := by rw [h]; abel
  unfold six term4
  rw [lop4 (x := (a, true)) (y := (b, true)) (v := (c, false)) (t := (d, false)),
    lop4 (x := (a, true)) (y := (c, false)) (v := (b, true)) (t := (d, false)),
    lop4 (x := (a, true)) (y := (c, false)) (v := (d, false)) (t := (b, true)),
    lop4 (x := (c, false)) (y := (a, true)) (v := (b, true)) (t := (d, false)),
    lop4 (x := (c, false)) (y := (a, true)) (v := (d, false)) (t := (b, true)),
    lop4 (x := (c, false)) (y := (d, false)) (v := (a, true)) (t := (b, true))]
  · simp only [co, net, if_true, Bool.false_eq_true, if_false, Pi.sub_apply, Pi.neg_apply, one_mul, mul_one, sub_neg_eq_add,
      Pi.add_apply, Int.cast_sub, Int.cast_add]
  all_goals
    simp only [net, if_true, Bool.false_eq_true, if_false]
    rw [hm]; abel

theorem unit_one_one {y t b d : σ} (hbd : b ≠ d) (h : unit y - unit t = unit b - unit d) : y = b ∧ t = d := by
  have hb := congrFun h b
  have hd := congrFun h d
  simp only [Pi.sub_apply, unit_at, if_true, hbd, hbd.symm, if_false] at hb hd
  constructor
  · by_contra hc
    rw [if_neg (Ne.symm hc)] at hb
    split_ifs at hb <;> omega
  · by_contra hc
    rw [if_neg (show ¬ d = t from Ne.symm hc)] at hd
    split_ifs at hd <;> omega

/-- Four unit vectors that differ from two by a pair of equal ones. -/
theorem unit_loop {x y v t i j : σ} (hij : i ≠ j) (h : unit x + unit y - unit v - unit t = unit i - unit j) :
    (x = i ∧ v = j ∧ y = t) ∨ (x = i ∧ t = j ∧ y = v) ∨ (y = i ∧ v = j ∧ x = t) ∨ (y = i ∧ t = j ∧ x = v) := by
  have hi := congrFun h i
  have hj := congrFun h j
  simp only [Pi.sub_apply, Pi.add_apply, unit_at, if_true, hij, hij.symm, if_false] at hi hj
  have hxy : x = i ∨ y = i := by
    by_contra hc
    push Not at hc
    rw [if_neg (Ne.symm hc.1), if_neg (Ne.symm hc.2)] at hi
    split_ifs at hi <;> omega
  have hvt : v = j ∨ t = j := by
    by_contra hc
    push Not at hc
    rw [if_neg (show ¬ j = v from Ne.symm hc.1), if_neg (show ¬ j = t from Ne.symm hc.2)] at hj
    split_ifs at hj <;> omega
  have inj : ∀ a b : σ, unit a - unit b = 0 → a = b := by
    intro a b e
    have := congrFun e a
    simp only [Pi.sub_apply, unit_at, if_true, Pi.zero_apply] at this
    by_contra hc
    rw [if_neg hc] at this
    omega
  rcases hxy with rfl | rfl <;> rcases hvt with rfl | rfl
  · exact Or.inl ⟨rfl, rfl, inj y t (by linear_combination h)⟩
  · exact Or.inr (Or.inl ⟨rfl, rfl, inj y v (by linear_combination h)⟩)
  · exact Or.inr (Or.inr (Or.inl ⟨rfl, rfl, inj x t (by linear_combination h)⟩))
  · exact Or.inr (Or.inr (Or.inr ⟨rfl, rfl, inj x v (by linear_combination h)⟩))

/-- Four unit vectors: the raising operators are those of the target, and so are the lowering ones. -/
theorem unit_four {a b c d x y v t : σ} (hac : a ≠ c) (had : a ≠ d) (hbc : b ≠ c) (hbd : b ≠ d)
    (h : unit x + unit y - unit v - unit t = unit a + unit b - unit c - unit d) :
    ((x = a ∧ y = b) ∨ (x = b ∧ y = a)) ∧ ((v = c ∧ t = d) ∨ (v = d ∧ t = c)) := by
  have ha := congrFun h a
  have hc := congrFun h c
  simp only [Pi.sub_apply, Pi.add_apply, unit_at, if_true, hac, had, hac.symm, hbc.symm, if_false] at ha hc
  have hxy : x = a ∨ y = a := by
    by_contra hn
    push Not at hn
    rw [if_neg (Ne.symm hn.1), if_neg (Ne.symm hn.2)] at ha
    split_ifs at ha <;> omega
  have hvt : v = c ∨ t = c := by
    by_contra hn
    push Not at hn
    rw [if_neg (show ¬ c = v from Ne.symm hn.1), if_neg (show ¬ c = t from Ne.symm hn.2)] at hc
    split_ifs at hc <;> omega
  rcases hxy with rfl | rfl <;> rcases hvt with rfl | rfl
  · obtain ⟨e1, e2⟩ := unit_one_one (y := y) (t := t) hbd (by linear_combination h)
    exact ⟨Or.inl ⟨rfl, e1⟩, Or.inl ⟨rfl, e2⟩⟩
  · obtain ⟨e1, e2⟩ := unit_one_one (y := y) (t := v) hbd (by linear_combination h)
    exact ⟨Or.inl ⟨rfl, e1⟩, Or.inr ⟨e2, rfl⟩⟩
  · obtain ⟨e1, e2⟩ := unit_one_one (y := x) (t := t) hbd (by linear_combination h)
    exact ⟨Or.inr ⟨e1, rfl⟩, Or.inl ⟨rfl, e2⟩⟩
  · obtain ⟨e1, e2⟩ := unit_one_one (y := x) (t := v) hbd (by linear_combination h)
    exact ⟨Or.inr ⟨e1, rfl⟩, Or.inr ⟨e2, rfl⟩⟩

theorem sum_pick (F : σ → σ → σ → σ → ℝ) (a b c d : σ) :
    (∑ x, ∑ y, ∑ v, ∑ t, if x = a ∧ y = b ∧ v = c ∧ t = d then F x y v t else 0) = F a b c d := by
  rw [sum_eq_single a, sum_eq_single b, sum_eq_single c, sum_eq_single d]
  · simp
  all_goals
    first
    | (intro z _ hz; simp [hz])
    | (intro hz; exact absurd (mem_univ _) hz)

theorem sum_four_same (F : σ → σ → σ → σ → ℝ) {i j : σ}
    (h : ∀ x y v t, F x y v t ≠ 0 → x = i ∧ y = i ∧ v = j ∧ t = j) :
    ∑ x, ∑ y, ∑ v, ∑ t, F x y v t = F i i j j := by
  rw [← sum_pick F i i j j]
  refine sum_congr rfl fun x _ => sum_congr rfl fun y _ => sum_congr rfl fun v _ => sum_congr rfl fun t _ => ?_
  by_cases h0 : F x y v t = 0
  · simp [h0]
  · rw [if_pos (h x y v t h0)]

theorem sum_four_pair (F : σ → σ → σ → σ → ℝ) {i j k : σ} (hjk : j ≠ k)
    (h : ∀ x y v t, F x y v t ≠ 0 → x = i ∧ y = i ∧ ((v = j ∧ t = k) ∨ (v = k ∧ t = j))) :
    ∑ x, ∑ y, ∑ v, ∑ t, F x y v t = F i i j k + F i i k j := by
  rw [← sum_pick F i i j k, ← sum_pick F i i k j]
  simp only [← sum_add_distrib]
  refine sum_congr rfl fun x _ => sum_congr rfl fun y _ => sum_congr rfl fun v _ => sum_congr rfl fun t _ => ?_
  by_cases h0 : F x y v t = 0
  · simp [h0]
  · obtain ⟨rfl, rfl, ⟨rfl, rfl⟩ | ⟨rfl, rfl⟩⟩ := h x y v t h0
    · simp [hjk]
    · simp [hjk]

theorem sum_four_loop (F : σ → σ → σ → σ → ℝ) {i j : σ} (hij : i ≠ j)
    (h : ∀ x y v t, F x y v t ≠ 0 →
      (x = i ∧ v = j ∧ y = t) ∨ (x = i ∧ t = j ∧ y = v) ∨ (y = i ∧ v = j ∧ x = t) ∨ (y = i ∧ t = j ∧ x = v)) :
    ∑ x, ∑ y, ∑ v, ∑ t, F x y v t = ∑ k, (F i k j k + F i k k j + F k i j k + F k i k j) -
      (F i j j j + F j i j j + F i i j i + F i i i j) := by
  have e1 : ∑ x, ∑ y, ∑ v, ∑ t, (if x = i ∧ v = j ∧ y = t then F x y v t else 0) = ∑ k, F i k j k := by
    rw [sum_eq_single i]
    · refine sum_congr rfl fun k _ => ?_
      rw [sum_eq_single j, sum_eq_single k]
      · simp
      all_goals
        first
        | (intro z _ hz; simp [hz, Ne.symm hz])
        | (intro hz; exact absurd (mem_univ _) hz)
    all_goals
      first
      | (intro z _ hz; simp [hz])
      | (intro hz; exact absurd (mem_univ _) hz)
  have e2 : ∑ x, ∑ y, ∑ v, ∑ t, (if x = i ∧ t = j ∧ y = v then F x y v t else 0) = ∑ k, F i k k j := by
    rw [sum_eq_single i]
    · refine sum_congr rfl fun k _ => ?_
      rw [sum_eq_single k, sum_eq_single j]
      · simp
      all_goals
        first
        | (intro z _ hz; simp [hz, Ne.symm hz])
        | (intro hz; exact absurd (mem_univ _) hz)
    all_goals
      first
      | (intro z _ hz; simp [hz])
      | (intro hz; exact absurd (mem_univ _) hz)
  have e3 : ∑ x, ∑ y, ∑ v, ∑ t, (if y = i ∧ v = j ∧ x = t then F x y v t else 0) = ∑ k, F k i j k := by
    refine sum_congr rfl fun k _ => ?_
    rw [sum_eq_single i, sum_eq_single j, sum_eq_single k]
    · simp
    all_goals
      first
      | (intro z _ hz; simp [hz, Ne.symm hz])
      | (intro hz; exact absurd (mem_univ _) hz)
  have e4 : ∑ x, ∑ y, ∑ v, ∑ t, (if y = i ∧ t = j ∧ x = v then F x y v t else 0) = ∑ k, F k i k j := by
    refine sum_congr rfl fun k _ => ?_
    rw [sum_eq_single i, sum_eq_single k, sum_eq_single j]
    · simp
    all_goals
      first
      | (intro z _ hz; simp [hz, Ne.symm hz])
      | (intro hz; exact absurd (mem_univ _) hz)
  simp only [sum_add_distrib]
  rw [← e1, ← e2, ← e3, ← e4, ← sum_pick F i j j j, ← sum_pick F j i j j, ← sum_pick F i i j i, ← sum_pick F i i i j]
  simp only [← sum_add_distrib, ← sum_sub_distrib]
  refine sum_congr rfl fun x _ => sum_congr rfl fun y _ => sum_congr rfl fun v _ => sum_congr rfl fun t _ => ?_
  by_cases h0 : F x y v t = 0
  · simp [h0]
  · rcases h x y v t h0 with ⟨rfl, rfl, rfl⟩ | ⟨rfl, rfl, rfl⟩ | ⟨rfl, rfl, rfl⟩ | ⟨rfl, rfl, rfl⟩
    · by_cases h1 : y = x
      · subst h1; simp [hij, hij.symm]
      · by_cases h2 : y = v
        · subst h2; simp [hij, hij.symm]
        · simp [hij, hij.symm, h1, h2, Ne.symm h1]
    · by_cases h1 : y = x
      · subst h1; simp [hij, hij.symm]
      · by_cases h2 : y = t
        · subst h2; simp [hij, hij.symm]
        · simp [hij, hij.symm, h1, h2, Ne.symm h1, Ne.symm h2]
    · by_cases h1 : x = y
      · subst h1; simp [hij, hij.symm]
      · by_cases h2 : x = v
        · subst h2; simp [hij, hij.symm]
        · simp [hij, hij.symm, h1, h2, Ne.symm h1, Ne.symm h2]
    · by_cases h1 : x = y
      · subst h1; simp [hij, hij.symm]
      · by_cases h2 : x = t
        · subst h2; simp [hij, hij.symm]
        · simp [hij, hij.symm, h1, h2, Ne.symm h1, Ne.symm h2]

end Verif.Osc
