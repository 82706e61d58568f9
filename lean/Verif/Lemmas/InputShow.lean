import Verif.Lemmas.InputRows
import Mathlib.Algebra.Order.Floor.Ring
import Mathlib.Tactic.FieldSimp
import Mathlib.Tactic.Positivity

/-!
# Lemmas on written numbers and lines
-/

namespace Verif

theorem digitChar_eq {d : Nat} (h : d < 10) : digitChar d = Nat.digitChar d := by
  interval_cases d <;> decide

/-- A character that is in none of the keywords. -/
def Safe (c : Char) : Prop := c ≠ 'S' ∧ c ≠ 'G' ∧ c ≠ 'W' ∧ c ≠ 'C' ∧ c ≠ 'D'

instance (c : Char) : Decidable (Safe c) := by unfold Safe; infer_instance

theorem digit_safe {d : Nat} (h : d < 10) : Safe (Nat.digitChar d) := by
  interval_cases d <;> decide

theorem digits_safe {t : Text} {ds : List Nat} (h : Digits t ds) : ∀ c ∈ t, Safe c := by
  intro c hc
  rw [h.2, List.mem_map] at hc
  obtain ⟨d, hd, rfl⟩ := hc
  exact digit_safe (h.1 d hd)

theorem plain_of_safe {line : Text} (h : ∀ c ∈ line, Safe c) : Plain line := by
  intro s hs
  have key : ∀ (k : Text) (c : Char), c ∈ k → k <:+: line → Safe c := fun k c hc hk => h c (hk.subset hc)
  cases s with
  | header => exact absurd (key _ 'S' (by decide) hs) (by decide)
  | geom => exact absurd (key _ 'G' (by decide) hs) (by decide)
  | weight => exact absurd (key _ 'W' (by decide) hs) (by decide)
  | curvil => exact absurd (key _ 'C' (by decide) hs) (by decide)
  | degmode => exact absurd (key _ 'D' (by decide) hs) (by decide)
  | ignored => exact absurd (key _ 'C' (by decide) hs) (by decide)

attribute [local irreducible] isWs

theorem digits_snoc {t : Text} {ds : List Nat} (h : Digits t ds) {d : Nat} (hd : d < 10) :
    Digits (t ++ [digitChar d]) (ds ++ [d]) := by
  refine ⟨fun e he => ?_, ?_⟩
  · rcases List.mem_append.1 he with he | he
    · exact h.1 e he
    · rw [List.mem_singleton.1 he]; exact hd
  · rw [h.2, digitChar_eq hd]
    simp

theorem ofDigits_snoc (ds : List Nat) (d : Nat) :
    Nat.ofDigits 10 (ds ++ [d]).reverse = d + 10 * Nat.ofDigits 10 ds.reverse := by
  rw [List.reverse_append, List.reverse_singleton, List.singleton_append, Nat.ofDigits_cons]

theorem showDigits_spec (k n : Nat) : ∃ ds, Digits (showDigits k n) ds ∧ ds.length = k ∧
    Nat.ofDigits 10 ds.reverse = n % 10 ^ k := by
  induction k generalizing n with
  | zero => exact ⟨[], ⟨by simp, rfl⟩, rfl, by simp [Nat.mod_one]⟩
  | succ k ih =>
    obtain ⟨ds, h1, h2, h3⟩ := ih (n / 10)
    refine ⟨ds ++ [n % 10], digits_snoc h1 (Nat.mod_lt _ (by norm_num)), by simp [h2], ?_⟩
    rw [ofDigits_snoc, h3, pow_succ, mul_comm (10 ^ k) 10, Nat.mod_mul]

theorem showNatGo_spec (k n : Nat) (hn : n < 10 ^ k) (hk : 1 ≤ k) : ∃ ds, ds ≠ [] ∧ Digits (showNatGo k n) ds ∧
    Nat.ofDigits 10 ds.reverse = n ∧ ∀ p, 1 ≤ p → n < 10 ^ p → ds.length ≤ p := by
  induction k generalizing n with
  | zero => omega
  | succ k ih =>
    unfold showNatGo
    split
    · rename_i h
      refine ⟨[n], by simp, ⟨by simpa using h, by simp [digitChar_eq h]⟩, by simp, fun p hp _ => by simpa using hp⟩
    · rename_i h
      have hk' : 1 ≤ k := by
        by_contra hc
        have : k = 0 := by omega
        subst this
        simp at hn
        omega
      obtain ⟨ds, h0, h1, h2, h3⟩ := ih (n / 10) (by rw [pow_succ] at hn; omega) hk'
      refine ⟨ds ++ [n % 10], by simp, digits_snoc h1 (Nat.mod_lt _ (by norm_num)), ?_, fun p hp hlt => ?_⟩
      · rw [ofDigits_snoc, h2]
        omega
      · obtain ⟨p, rfl⟩ : ∃ q, p = q + 1 := ⟨p - 1, by omega⟩
        have hp1 : 1 ≤ p := by
          by_contra hc
          have : p = 0 := by omega
          subst this
          simp at hlt
          omega
        have := h3 p hp1 (by rw [pow_succ] at hlt; omega)
        simp
        omega

theorem showNat_spec (n : Nat) : ∃ ds, ds ≠ [] ∧ Digits (showNat n) ds ∧
    Nat.ofDigits 10 ds.reverse = n ∧ ∀ p, 1 ≤ p → n < 10 ^ p → ds.length ≤ p :=
  showNatGo_spec _ _ ((Nat.lt_pow_self (by norm_num : 1 < 10)).trans (Nat.pow_lt_pow_right (by norm_num) (by omega)))
    (by omega)

/-- A printed word: not empty, no white space, nothing from the keywords. -/
def Word (t : Text) : Prop := t ≠ [] ∧ (∀ c ∈ t, isWs c = false) ∧ ∀ c ∈ t, Safe c

theorem digits_word {t : Text} {ds : List Nat} (h : Digits t ds) (h0 : ds ≠ []) : Word t := by
  refine ⟨fun e => h0 ?_, fun c hc => (digits_mem h hc).2.2.2.2.2, digits_safe h⟩
  rw [e] at h
  have := digits_length h
  exact List.eq_nil_of_length_eq_zero this.symm

theorem minus_ok : isWs '-' = false ∧ Safe '-' := by
  constructor
  · with_unfolding_all decide
  · decide

theorem point_ok : isWs '.' = false ∧ Safe '.' := by
  constructor
  · with_unfolding_all decide
  · decide

theorem word_minus {t : Text} (h : Word t) : Word ('-' :: t) := by
  refine ⟨by simp, fun c hc => ?_, fun c hc => ?_⟩
  · rcases List.mem_cons.1 hc with rfl | hc
    · exact minus_ok.1
    · exact h.2.1 c hc
  · rcases List.mem_cons.1 hc with rfl | hc
    · exact minus_ok.2
    · exact h.2.2 c hc

theorem showNat_field (n : Nat) (h : n < 2 ^ 64) : NatField (showNat n) n ∧ Word (showNat n) := by
  obtain ⟨ds, h0, h1, h2, -⟩ := showNat_spec n
  exact ⟨⟨.inl ⟨ds, h0, h1, h2.symm⟩, h⟩, digits_word h1 h0⟩

theorem showNat_length (n p : Nat) (hp : 1 ≤ p) (h : n < 10 ^ p) : (showNat n).length ≤ p := by
  obtain ⟨ds, h0, h1, h2, h3⟩ := showNat_spec n
  rw [digits_length h1]
  exact h3 p hp h

theorem showInt_field (n : Int) (h1 : -999 ≤ n) (h2 : n ≤ 9999) :
    IntField (showInt n) n ∧ Word (showInt n) ∧ (showInt n).length < 5 := by
  have w := (showNat_field n.natAbs (by omega)).2
  obtain ⟨ds, d0, d1, d2, -⟩ := showNat_spec n.natAbs
  have num : Numeral (showNat n.natAbs) n.natAbs := ⟨ds, d0, d1, d2.symm⟩
  unfold showInt
  split
  · refine ⟨⟨⟨n.natAbs, .inr ⟨_, num, .inr ⟨rfl, by omega⟩⟩⟩, by omega, by omega⟩, word_minus w, ?_⟩
    have := showNat_length n.natAbs 3 (by omega) (by norm_num; omega)
    simp
    omega
  · refine ⟨⟨⟨n.natAbs, .inl ⟨num, by omega⟩⟩, by omega, by omega⟩, w, ?_⟩
    have := showNat_length n.natAbs 4 (by omega) (by norm_num; omega)
    omega

/-! ## Rounding -/

theorem roundEven_near (q : ℚ) (h : 0 ≤ q) : |(roundEven q : ℚ) - q| ≤ 1 / 2 := by
  have hf : (0 : ℤ) ≤ ⌊q⌋ := Int.floor_nonneg.2 h
  have e : ((⌊q⌋.toNat : ℕ) : ℚ) = ((⌊q⌋ : ℤ) : ℚ) := by
    have := Int.toNat_of_nonneg hf
    exact_mod_cast this
  have l1 := Int.floor_le q
  have l2 := Int.lt_floor_add_one q
  rw [abs_le]
  unfold roundEven
  simp only
  split
  · rename_i h1
    rw [e] at h1 ⊢
    constructor <;> linarith
  · rename_i h1
    split
    · rename_i h2
      push_cast
      rw [e] at h1 h2 ⊢
      constructor <;> linarith
    · rename_i h2
      split
      · rw [e] at h1 h2 ⊢
        constructor <;> linarith
      · push_cast
        rw [e] at h1 h2 ⊢
        constructor <;> linarith

theorem roundEven_nat (n : Nat) : roundEven (n : ℚ) = n := by
  have : ⌊(n : ℚ)⌋ = n := Int.floor_natCast n
  unfold roundEven
  simp [this]

theorem roundEven_le (q : ℚ) (n : Nat) (h0 : 0 ≤ q) (h : q ≤ n) : roundEven q ≤ n := by
  have h1 := roundEven_near q h0
  rw [abs_le] at h1
  by_contra hc
  have : (n : ℚ) + 1 ≤ roundEven q := by exact_mod_cast (by omega : n + 1 ≤ roundEven q)
  linarith

/-- The number a printed value reads as. -/
def printedValue (p : Nat) (q : ℚ) : ℚ :=
  if q < 0 then -((roundEven (|q| * 10 ^ p) : ℚ) / 10 ^ p) else (roundEven (|q| * 10 ^ p) : ℚ) / 10 ^ p

theorem printedValue_near (p : Nat) (q : ℚ) : |printedValue p q - q| ≤ 1 / 2 / 10 ^ p := by
  have hp : (0 : ℚ) < 10 ^ p := by positivity
  have h := roundEven_near (|q| * 10 ^ p) (by positivity)
  have e : |(roundEven (|q| * 10 ^ p) : ℚ) / 10 ^ p - abs q| ≤ 1 / 2 / 10 ^ p := by
    rw [le_div_iff₀ hp, ← abs_of_pos hp, ← abs_mul, abs_of_pos hp, sub_mul, div_mul_cancel₀ _ hp.ne']
    exact h
  unfold printedValue
  split
  · rename_i hq
    rw [abs_of_neg hq] at e ⊢
    rw [← abs_neg]
    convert e using 2
    ring
  · rename_i hq
    rw [abs_of_nonneg (not_lt.1 hq)] at e ⊢
    exact e

theorem showFixed_field (p : Nat) (q : ℚ) : RealField (showFixed p q) (printedValue p q) ∧ Word (showFixed p q) := by
  obtain ⟨is, i0, i1, i2, -⟩ := showNat_spec (roundEven (|q| * 10 ^ p) / 10 ^ p)
  obtain ⟨fs, f1, f2, f3⟩ := showDigits_spec p (roundEven (|q| * 10 ^ p) % 10 ^ p)
  rw [Nat.mod_mod] at f3
  generalize hm : roundEven (|q| * 10 ^ p) = m at *
  have val : ((Nat.ofDigits 10 (is ++ fs).reverse : ℕ) : ℚ) / 10 ^ fs.length * (10 : ℚ) ^ (0 : ℤ) = (m : ℚ) / 10 ^ p := by
    rw [zpow_zero, mul_one, f2, List.reverse_append, Nat.ofDigits_append, i2, f3, List.length_reverse, f2,
      Nat.mod_add_div]
  have frac : Fraction (showNat (m / 10 ^ p) ++ '.' :: showDigits p (m % 10 ^ p)) ((m : ℚ) / 10 ^ p) :=
    ⟨_, _, [], is, fs, 0, i1, f1, by simp [i0], .inl ⟨rfl, rfl⟩, .inr (by simp), val.symm⟩
  have word : Word (showNat (m / 10 ^ p) ++ '.' :: showDigits p (m % 10 ^ p)) := by
    have w := digits_word i1 i0
    refine ⟨by simp, fun c hc => ?_, fun c hc => ?_⟩
    · rcases List.mem_append.1 hc with hc | hc
      · exact w.2.1 c hc
      · rcases List.mem_cons.1 hc with rfl | hc
        · exact point_ok.1
        · exact (digits_mem f1 hc).2.2.2.2.2
    · rcases List.mem_append.1 hc with hc | hc
      · exact w.2.2 c hc
      · rcases List.mem_cons.1 hc with rfl | hc
        · exact point_ok.2
        · exact digits_safe f1 c hc
  unfold showFixed printedValue
  simp only [hm]
  split
  · exact ⟨.inr ⟨_, _, frac, .inr ⟨rfl, rfl⟩⟩, word_minus word⟩
  · exact ⟨.inl frac, word⟩

theorem showFixed_length (p k : Nat) (hk : 1 ≤ k) (q : ℚ) (h1 : -((10 : ℚ) ^ k - 1) ≤ q) (h2 : q ≤ 10 ^ (k + 1) - 1) :
    (showFixed p q).length ≤ k + 2 + p := by
  obtain ⟨fs, f1, f2, f3⟩ := showDigits_spec p (roundEven (|q| * 10 ^ p) % 10 ^ p)
  have hf := digits_length f1
  have bound : ∀ j : Nat, |q| ≤ 10 ^ j - 1 → roundEven (|q| * 10 ^ p) / 10 ^ p < 10 ^ j := by
    intro j hj
    have hj1 : 1 ≤ 10 ^ j := Nat.one_le_pow _ _ (by norm_num)
    have : roundEven (|q| * 10 ^ p) ≤ (10 ^ j - 1) * 10 ^ p := by
      refine roundEven_le _ _ (by positivity) ?_
      push_cast [Nat.cast_sub hj1]
      exact mul_le_mul_of_nonneg_right hj (by positivity)
    have h2 : roundEven (|q| * 10 ^ p) / 10 ^ p ≤ 10 ^ j - 1 :=
      Nat.div_le_of_le_mul (by rw [mul_comm (10 ^ p) (10 ^ j - 1)]; exact this)
    omega
  unfold showFixed
  simp only
  rw [List.length_append, List.length_append, List.length_cons, hf, f2]
  split
  · rename_i hq
    have := showNat_length (roundEven (|q| * 10 ^ p) / 10 ^ p) k hk (bound k (by rw [abs_of_neg hq]; linarith))
    simp
    omega
  · rename_i hq
    have := showNat_length (roundEven (|q| * 10 ^ p) / 10 ^ p) (k + 1) (by omega)
      (bound (k + 1) (by rw [abs_of_nonneg (not_lt.1 hq)]; exact h2))
    simp
    omega

/-! ## Lines -/

theorem blank_safe : Safe ' ' := by decide

theorem padded_safe (l : List (Nat × Text)) (h : ∀ p ∈ l, Word p.2) :
    ∀ c ∈ l.flatMap fun p => padLeft p.1 p.2, Safe c := by
  intro c hc
  rw [List.mem_flatMap] at hc
  obtain ⟨p, hp, hc⟩ := hc
  unfold padLeft at hc
  rcases List.mem_append.1 hc with hc | hc
  · rw [(List.mem_replicate.1 hc).2]
    exact blank_safe
  · exact (h p hp).2.2 c hc

theorem padded_fields (l : List (Nat × Text)) (h : ∀ p ∈ l, Word p.2) (hf : ∀ p ∈ l.tail, p.2.length < p.1) :
    fieldsOf (l.flatMap fun p => padLeft p.1 p.2) = l.map (·.2) :=
  fieldsOf_padded l (fun p hp => ⟨(h p hp).1, (h p hp).2.1⟩) hf

theorem intsLine_eq (l : List Text) : intsLine l = (l.map fun t => (5, t)).flatMap fun p => padLeft p.1 p.2 := by
  unfold intsLine
  rw [List.flatMap_map]

theorem intsLine_spec (l : List Text) (h : ∀ t ∈ l, Word t) (hf : ∀ t ∈ l.tail, t.length < 5) :
    fieldsOf (intsLine l) = l ∧ Plain (intsLine l) := by
  rw [intsLine_eq]
  constructor
  · rw [padded_fields]
    · simp
    · intro p hp
      obtain ⟨t, ht, rfl⟩ := List.mem_map.1 hp
      exact h t ht
    · intro p hp
      rw [← List.map_tail] at hp
      obtain ⟨t, ht, rfl⟩ := List.mem_map.1 hp
      exact hf t ht
  · refine plain_of_safe (padded_safe _ fun p hp => ?_)
    obtain ⟨t, ht, rfl⟩ := List.mem_map.1 hp
    exact h t ht

theorem chunks15_join (k : Nat) (l : List Int) (h : l.length < k) : (chunks15 k l).flatMap id = l := by
  induction k generalizing l with
  | zero => omega
  | succ k ih =>
    unfold chunks15
    cases l with
    | nil => simp
    | cons a l =>
      rw [if_neg (by simp), List.flatMap_cons, ih]
      · simp
      · simp at h ⊢
        omega

theorem chunks15_mem (k : Nat) (l c : List Int) (h : c ∈ chunks15 k l) : ∀ n ∈ c, n ∈ l := by
  induction k generalizing l with
  | zero => simp [chunks15] at h
  | succ k ih =>
    unfold chunks15 at h
    split at h
    · simp at h
    · rcases List.mem_cons.1 h with rfl | h
      · exact fun n hn => List.mem_of_mem_take hn
      · exact fun n hn => List.mem_of_mem_drop (ih _ h n hn)

theorem atomLine_spec (num x y z : ℚ) (hx : (showFixed 8 x).length < 16) (hy : (showFixed 8 y).length < 16)
    (hz : (showFixed 8 z).length < 16) :
    fieldsOf (atomLine num x y z) = [showFixed 2 num, showFixed 8 x, showFixed 8 y, showFixed 8 z] ∧
    Plain (atomLine num x y z) := by
  have e : atomLine num x y z = [(5, showFixed 2 num), (16, showFixed 8 x), (16, showFixed 8 y),
      (16, showFixed 8 z)].flatMap fun p => padLeft p.1 p.2 := by
    simp [atomLine]
  have w : ∀ p ∈ [(5, showFixed 2 num), (16, showFixed 8 x), (16, showFixed 8 y), (16, showFixed 8 z)], Word p.2 := by
    intro p hp
    simp only [List.mem_cons, List.not_mem_nil, or_false] at hp
    rcases hp with rfl | rfl | rfl | rfl <;> exact (showFixed_field _ _).2
  rw [e]
  refine ⟨?_, plain_of_safe (padded_safe _ w)⟩
  rw [padded_fields _ w]
  · rfl
  · intro p hp
    simp only [List.tail_cons, List.mem_cons, List.not_mem_nil, or_false] at hp
    rcases hp with rfl | rfl | rfl <;> assumption

theorem weightText_spec (i : Nat) (w : ℚ) (hi : i < 2 ^ 64) (hw : (showFixed 6 w).length < 12) :
    fieldsOf (padLeft 5 (showNat i) ++ padLeft 12 (showFixed 6 w)) = [showNat i, showFixed 6 w] ∧
    Plain (padLeft 5 (showNat i) ++ padLeft 12 (showFixed 6 w)) := by
  have e : padLeft 5 (showNat i) ++ padLeft 12 (showFixed 6 w) =
      [(5, showNat i), (12, showFixed 6 w)].flatMap fun p => padLeft p.1 p.2 := by simp
  have wd : ∀ p ∈ [(5, showNat i), (12, showFixed 6 w)], Word p.2 := by
    intro p hp
    simp only [List.mem_cons, List.not_mem_nil, or_false] at hp
    rcases hp with rfl | rfl
    · exact (showNat_field i hi).2
    · exact (showFixed_field _ _).2
  rw [e]
  refine ⟨?_, plain_of_safe (padded_safe _ wd)⟩
  rw [padded_fields _ wd]
  · rfl
  · intro p hp
    simp only [List.tail_cons, List.mem_cons, List.not_mem_nil, or_false] at hp
    subst hp
    exact hw

theorem printedValue_nat (p n : Nat) : printedValue p n = n := by
  unfold printedValue
  have h0 : ¬ ((n : ℚ) < 0) := not_lt.2 (Nat.cast_nonneg n)
  rw [if_neg h0, abs_of_nonneg (not_lt.1 h0)]
  have := roundEven_nat (n * 10 ^ p)
  push_cast at this
  rw [this]
  have hp : (10 : ℚ) ^ p ≠ 0 := by positivity
  push_cast
  field_simp

theorem printedValue_int (p : Nat) (q : ℚ) : ∃ k : ℤ, printedValue p q = k / 10 ^ p := by
  unfold printedValue
  split
  · exact ⟨-(roundEven (|q| * 10 ^ p) : ℤ), by push_cast; ring⟩
  · exact ⟨(roundEven (|q| * 10 ^ p) : ℤ), by push_cast; ring⟩

end Verif
